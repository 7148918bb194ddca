import Verif.Model.GridSearch
import Mathlib.Algebra.BigOperators.Group.Finset.Basic
import Mathlib.Algebra.Order.Ring.Abs

/-!
# Specification vocabulary for the budget search

Nothing here mentions how the search works: only spend grids, choices of one row per channel,
and totals.
-/

namespace Verif.GridSearch.Spec

open Verif Finset

/-- The result `xs` is the choice "channel `c` spends the amount in row `k c` of its column",
each amount cast to an integer. -/
def IsChoice (G : Grid) (k : ℕ → ℕ) (xs : List (Option ℤ)) : Prop :=
  xs.length = G.cols ∧
    ∀ c < G.cols, k c < G.rows ∧
      ∃ s, G.spend (k c) c = some s ∧ xs[c]? = some (some (truncInt s))

/-- Every channel has a finite (non-NaN) first-row spend. -/
def FirstRowFinite (G : Grid) : Prop := ∀ c < G.cols, ∃ s, G.spend 0 c = some s

/-- All finite spends of the grid are integers (as produced by the grid builder). -/
def IntegerSpends (G : Grid) : Prop :=
  ∀ r < G.rows, ∀ c < G.cols, ∀ s, G.spend r c = some s → ∃ n : ℤ, s = n

/-- All finite spends of the grid are non-negative. -/
def NonnegSpends (G : Grid) : Prop :=
  ∀ r < G.rows, ∀ c < G.cols, ∀ s, G.spend r c = some s → 0 ≤ s

/-- Finite spends strictly increase down each column. -/
def IncreasingSpends (G : Grid) : Prop :=
  ∀ c < G.cols, ∀ r r' s s', r < r' → r' < G.rows → G.spend r c = some s →
    G.spend r' c = some s' → s < s'

/-- The outcome is known wherever the spend is. -/
def OutcomeWhereSpend (G : Grid) : Prop :=
  ∀ r < G.rows, ∀ c < G.cols, ∀ s, G.spend r c = some s → ∃ o, G.out r c = some o

/-- Total of the integer results (`none`, a NaN spend, does not occur under `IsChoice`). -/
def total (xs : List (Option ℤ)) : ℤ := (xs.map fun x => x.getD 0).sum

/-- A regular grid: channel `c` has finite rows `0..K c`, spend `base c + r * stepSize` and
outcome `f c r` there, NaN below. -/
structure Regular (G : Grid) (stepSize : ℚ) (K : ℕ → ℕ) (base : ℕ → ℚ) (f : ℕ → ℕ → ℚ) : Prop where
  step_pos : 0 < stepSize
  rows_pos : 0 < G.rows
  K_lt : ∀ c < G.cols, K c < G.rows
  spend_eq : ∀ c < G.cols, ∀ r ≤ K c, G.spend r c = some (base c + r * stepSize)
  out_eq : ∀ c < G.cols, ∀ r ≤ K c, G.out r c = some (f c r)
  spend_nan : ∀ c < G.cols, ∀ r, K c < r → r < G.rows → G.spend r c = none

/-- Diminishing returns: each further step of spend gains no more than the previous one. -/
def Concave (n : ℕ) (K : ℕ → ℕ) (f : ℕ → ℕ → ℚ) : Prop :=
  ∀ c < n, ∀ r, r + 2 ≤ K c → f c (r + 2) - f c (r + 1) ≤ f c (r + 1) - f c r

/-- More spend never loses outcome. -/
def Nondecreasing (n : ℕ) (K : ℕ → ℕ) (f : ℕ → ℕ → ℚ) : Prop :=
  ∀ c < n, ∀ r, r + 1 ≤ K c → f c r ≤ f c (r + 1)

end Verif.GridSearch.Spec
