import Verif.Spec.Summary

/-!
# What the report of the optimal frequency should say
-/

namespace Verif.FreqReport.Spec

open Verif.Mmm Verif.Mmm.Spec Verif.Metrics.Spec Verif.Summary Verif.Summary.Spec

/-- The data with one reach and frequency channel shown at frequency `f` everywhere, with the impressions
it had.  All other data is kept. -/
noncomputable def shownAt (d : Data) (c : ℕ) (f : ℝ) : Data :=
  { d with
    frequency := fun g t c' => if c' = c then f else d.frequency g t c'
    reach := fun g t c' =>
      if c' = c then d.reach g t c' * d.frequency g t c' / f else d.reach g t c' }

/-- The incremental outcome of channel `c` at frequency `f`, over the selection. -/
noncomputable def outcomeAt (ctx : Ctx) (d : Data) (s : Sel) (c : ℕ) (f : ℝ) (useKpiArg : Bool)
    (p : Params) : ℝ :=
  s.sum (lift ctx p (shownAt d c f) (.rf c) 0 1 true useKpiArg)

/-- The outcome of `δ` times more execution of channel `c` at frequency `f`, by reach or by frequency. -/
noncomputable def marginalAt (ctx : Ctx) (d : Data) (s : Sel) (c : ℕ) (f δ : ℝ)
    (byReach useKpiArg : Bool) (p : Params) : ℝ :=
  s.sum (lift ctx p (shownAt d c f) (.rf c) 1 (1 + δ) byReach useKpiArg)

/-- The spend on channel `c` over the selection. -/
noncomputable def costOf (s : Sel) (rfSpend : T3) (c : ℕ) : ℝ :=
  s.sum fun g t => rfSpend g t c

/-- The impressions of channel `c` over the selection. -/
noncomputable def impressionsOf (ctx : Ctx) (d : Data) (s : Sel) (c : ℕ) : ℝ :=
  s.sum (unitsOf ctx d (.rf c))

end Verif.FreqReport.Spec
