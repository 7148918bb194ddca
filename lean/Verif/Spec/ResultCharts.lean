import Mathlib.Data.Rat.Defs
import Mathlib.Algebra.Order.Ring.Rat
import Mathlib.Algebra.BigOperators.Group.List.Basic
import Verif.Spec.TimeCoordinates

/-!
# What the tables and charts of a budget optimization should show
-/

namespace Verif.ResultCharts.Spec

/-- One row may stand before another: decreases stand first, the largest first, then increases, the
largest first. -/
def Before (a b : String × ℚ) : Prop :=
  (a.2 < 0 ∧ 0 ≤ b.2) ∨ (a.2 < 0 ∧ b.2 < 0 ∧ a.2 ≤ b.2) ∨ (0 ≤ a.2 ∧ 0 ≤ b.2 ∧ b.2 ≤ a.2)

/-- The changes of a table of values by channel that are known. -/
def changes (opt non : List (String × ℚ)) : List (String × ℚ) :=
  List.zipWith (fun a b => (a.1, a.2 - b.2)) opt non

/-- The total of a table. -/
def total (l : List (String × ℚ)) : ℚ := (l.map (·.2)).sum

/-- The same channels in the same order. -/
def SameChannels (opt non : List (String × ℚ)) : Prop := opt.map (·.1) = non.map (·.1)

/-- A table whose values are all known. -/
def known (l : List (String × ℚ)) : List (String × Option ℚ) := l.map fun r => (r.1, some r.2)

/-- The rows of a table whose value is known. -/
def knownRows (rows : List (String × Option ℚ)) : List (String × ℚ) :=
  rows.filterMap fun r => r.2.map fun x => (r.1, x)

end Verif.ResultCharts.Spec
