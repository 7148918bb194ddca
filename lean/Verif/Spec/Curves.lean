import Verif.Spec.Metrics
import Verif.Model.Curves

/-!
# The world in which a response curve should rise
-/

namespace Verif.Curves.Spec

open Verif.Mmm Verif.Mmm.Spec

/-- Parameters of a paid channel in their domain: non-negative retention and coefficients, positive half
saturation and slope. -/
def ParamsOk (p : Params) : Chan → Prop
  | .media c => 0 ≤ p.media.alpha c ∧ 0 < p.media.ec c ∧ 0 < p.media.slope c ∧
      ∀ g, 0 ≤ p.media.beta g c
  | .rf c => 0 ≤ p.rf.alpha c ∧ 0 < p.rf.ec c ∧ 0 < p.rf.slope c ∧ ∀ g, 0 ≤ p.rf.beta g c
  | _ => False

/-- Data in its domain: executions, medians, scales and revenue per KPI are not negative. -/
structure DataOk (ctx : Ctx) (d : Data) : Prop where
  media : ∀ g t c, 0 ≤ d.media g t c
  reach : ∀ g t c, 0 ≤ d.reach g t c
  frequency : ∀ g t c, 0 ≤ d.frequency g t c
  mediaMedian : ∀ c, 0 ≤ ctx.media.median c
  reachMedian : ∀ c, 0 ≤ ctx.rf.median c
  std : 0 ≤ ctx.kpiT.std
  kpiPop : ∀ g, 0 ≤ ctx.kpiT.pop g
  revenue : ∀ g t, 0 ≤ revenue ctx d g t

end Verif.Curves.Spec
