import Mathlib.Algebra.BigOperators.Group.Finset.Basic
import Mathlib.Algebra.Order.Field.Rat

/-! # What the penalised spline solver should compute -/

namespace Verif.BandSolve.Spec

open Finset

/-- The `d`-th forward difference of a sequence at position `k`. -/
def delta : ℕ → (ℕ → ℚ) → ℕ → ℚ
  | 0, β, k => β k
  | d + 1, β, k => delta d β (k + 1) - delta d β k

/-- The symmetric matrix whose diagonal is `M · 0` and whose `c`-th superdiagonal is `M · c`, for
`c ≤ m`, and zero elsewhere. -/
def Stores (m n : ℕ) (M A : ℕ → ℕ → ℚ) : Prop :=
  (∀ i < n, ∀ j < n, A i j = A j i) ∧
  (∀ r c, r + c < n → c ≤ m → A r (r + c) = M r c) ∧
  (∀ r c, r + c < n → m < c → A r (r + c) = 0)

/-- Penalised least squares: squared residuals, a small ridge `eps`, and `pen` times the weighted
squared `d`-th differences of the coefficients. -/
def objective (N p : ℕ) (X : ℕ → ℕ → ℚ) (y : ℕ → ℚ) (eps pen : ℚ) (w : List ℚ) (d : ℕ)
    (β : ℕ → ℚ) : ℚ :=
  ∑ r ∈ range N, (y r - ∑ i ∈ range p, X r i * β i) ^ 2 + eps * ∑ i ∈ range p, β i ^ 2
    + pen * ∑ k ∈ range w.length, w.getD k 0 * delta d β k ^ 2

end Verif.BandSolve.Spec
