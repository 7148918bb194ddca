import Verif.Model.Thin

/-!
# What thinning promises
-/

namespace Verif.Thin.Spec

open Verif.Thin

variable {K δ : Type} [Field K] [LinearOrder K]

/-- A posterior as the sampler makes it: all chains have the same number of draws, and it is not
marked as thinned. -/
def Fresh (p : Posterior K δ) : Prop := p.attrs = none ∧ ∀ c ∈ p.chains, c.length = p.nDraws

/-- `m` of `n` draws at regular intervals: increasing positions among the `n`, consecutive ones apart
by `n / m` up to rounding. -/
def Regular (n m : ℕ) (l : List ℕ) : Prop :=
  l.length = m ∧ (∀ i ∈ l, i < n) ∧ l.Pairwise (· < ·) ∧
    ∀ k i j : ℕ, l[k]? = some i → l[k + 1]? = some j →
      ((j : K) - i - n / m < 1 ∧ (n : K) / m - (j - i) < 1)

/-- Chain by chain, the draws of `q` are `m` draws of `p` at regular intervals. -/
def ThinnedTo (m : ℕ) (p q : Posterior K δ) : Prop :=
  q.chains.length = p.chains.length ∧
    ∀ (c d : List δ) (j : ℕ), p.chains[j]? = some c → q.chains[j]? = some d →
      ∃ l, Regular (K := K) p.nDraws m l ∧ d.map some = l.map fun i => c[i]?

/-- The documented number of draws: `n` times the rate rounded up, or the given number. -/
def Requested (n : ℕ) (a : Args K) (m : ℕ) : Prop :=
  (∃ r, a.rate = some r ∧ a.nDraws = none ∧ 0 < r ∧ r ≤ 1 ∧ 1 ≤ m ∧ (n : K) * r ≤ m ∧
      (∀ k : ℕ, 1 ≤ k → (n : K) * r ≤ k → m ≤ k)) ∨
    (a.rate = none ∧ a.nDraws = some (m : ℤ) ∧ 1 ≤ m ∧ m ≤ n)

end Verif.Thin.Spec
