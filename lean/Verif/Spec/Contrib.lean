import Verif.Model.Contrib
import Verif.Spec.Summary

/-! What the tables behind the charts should say. -/

namespace Verif.Contrib.Spec

open Verif.Mmm Verif.Mmm.Spec Verif.Summary Verif.Summary.Spec
open Verif.Metrics.Spec (Sel)

/-- The posterior means of a summary of all geos, with names for the channels; the aggregated summary has
one time. -/
noncomputable def ofTable (names : List String) (nTimes : ℕ) (T : Summary.Table) : Dataset ℝ where
  names := names
  nTimes := nTimes
  inc := fun j m => (T .incrementalOutcome).bind fun x => x .posterior .mean 0 j m
  pct := fun j m => (T .pctOfContribution).bind fun x => x .posterior .mean 0 j m

/-- The mean over draws. -/
noncomputable def meanOf (draws : List Params) (f : Params → ℝ) : ℝ := (draws.map f).sum / draws.length

/-- The mean expected outcome of time `j`. -/
noncomputable def expected (ctx : Ctx) (s : Sel) (a : Args) (draws : List Params) (j : ℕ) : ℝ :=
  meanOf draws fun p => cellSum s a 0 j (expectedOutcome ctx p ctx.data true a.useKpi)

/-- The mean effect of a channel in time `j`. -/
noncomputable def effectOf (ctx : Ctx) (s : Sel) (a : Args) (draws : List Params) (j : ℕ) (ch : Chan) : ℝ :=
  meanOf draws fun p => cellSum s a 0 j (effect ctx p ctx.data a.baseline a.useKpi ch)

end Verif.Contrib.Spec
