import Verif.Spec.Curves

/-!
# What a budget optimization should report
-/

namespace Verif.Results.Spec

open Verif.Mmm Verif.Mmm.Spec Verif.Metrics.Spec

/-- The data when all reach and frequency channels show their impressions at the given frequencies; as
they are, if there are none. -/
noncomputable def shownAt (d : Data) : Option (ℕ → ℝ) → Data
  | none => d
  | some f =>
    { d with
      frequency := fun _ _ c => f c
      reach := fun g t c => d.reach g t c * d.frequency g t c / f c }

/-- Average over the draws. -/
noncomputable def average (draws : List Params) (f : Params → ℝ) : ℝ :=
  (draws.map f).sum / draws.length

/-- The mean incremental outcome of a channel over a selection when the channel runs at `k` times its
executions (media, or reach at the given frequencies), compared to not running. -/
noncomputable def outcomeAt (ctx : Ctx) (draws : List Params) (d : Data) (opt : Option (ℕ → ℝ))
    (s : Sel) (useKpiArg : Bool) (ch : Chan) (k : ℝ) : ℝ :=
  average draws fun p => s.sum (lift ctx p (shownAt d opt) ch 0 k true useKpiArg)

/-- The frequencies are not zero. -/
def NonZero (ctx : Ctx) : Option (ℕ → ℝ) → Prop
  | none => True
  | some f => ∀ c < ctx.rf.n, f c ≠ 0

/-- The first `k > 0` of `R` rows of the column have a spend, from a non-negative one upwards, and the
others have none. -/
structure Column (R k : ℕ) (x : ℕ → ℝ) (col : ℕ → Option ℝ) : Prop where
  pos : 0 < k
  le : k ≤ R
  some : ∀ i < k, col i = some (x i)
  none : ∀ i, k ≤ i → i < R → col i = none
  nonneg : 0 ≤ x 0
  increasing : ∀ i j, i < j → j < k → x i < x j

end Verif.Results.Spec
