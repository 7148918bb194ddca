import Mathlib.Data.Rat.Floor
import Mathlib.Algebra.BigOperators.Group.List.Basic

/-!
# Vocabulary for credible intervals
-/

namespace Verif.Interval.Spec

/-- The draws that are smaller than `v`, as a number. -/
def below (x : List ℚ) (v : ℚ) : ℕ := x.countP (fun a => decide (a < v))

/-- The draws that are larger than `v`. -/
def above (x : List ℚ) (v : ℚ) : ℕ := x.countP (fun a => decide (v < a))

/-- The draws in the interval from `lo` to `hi`, ends included. -/
def inside (x : List ℚ) (lo hi : ℚ) : ℕ := x.countP (fun a => decide (lo ≤ a ∧ a ≤ hi))

/-- `v` has rank `k` among the draws `x`, counted from 0 for the smallest: it is one of them, at
most `k` draws are smaller and at most `n - 1 - k` are larger. -/
def HasRank (x : List ℚ) (k : ℕ) (v : ℚ) : Prop :=
  v ∈ x ∧ below x v ≤ k ∧ above x v ≤ x.length - 1 - k

/-- The posterior draws of a metric: chains of finite numbers, at least one draw in all. -/
structure Draws where
  chains : List (List ℚ)
  some_draw : chains.flatten ≠ []

/-- All the draws of all the chains. -/
def Draws.all (d : Draws) : List ℚ := d.chains.flatten

/-- The array passed to the code. -/
def Draws.array (d : Draws) : List (List (Option ℚ)) := d.chains.map (·.map some)

end Verif.Interval.Spec
