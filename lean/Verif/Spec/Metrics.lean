import Verif.Spec.Mmm
import Verif.Spec.Selection
import Verif.Model.Metrics

/-!
# What the metrics mean
-/

namespace Verif.Metrics.Spec

open Verif.Mmm Verif.Mmm.Spec Verif.Selection Verif.Selection.Spec Finset

/-- A selection as the user writes it: dataset names, selected geo names and selected times. -/
structure Sel where
  norm : String → Option String
  geos : List String
  times : List String
  gsel : Option (List String)
  tsel : Option (List Item)

/-- The selection is one of the data of `ctx` and resolves to the given indices. -/
structure Sel.Resolves (s : Sel) (ctx : Ctx) (gi ti : Option (List ℕ)) : Prop where
  nGeos : s.geos.length = ctx.nGeos
  nTimes : s.times.length = ctx.nTimes
  geos : resolveGeos s.geos s.gsel = .ok gi
  times : resolveTimes s.norm s.times s.times.length s.tsel = .ok ti

open Classical in
/-- Sum over the selected times of one geo. -/
noncomputable def Sel.timeSum (s : Sel) (f : ℕ → ℕ → ℝ) (g : ℕ) : ℝ :=
  ∑ t ∈ range s.times.length with timeSelected s.norm s.times s.tsel t, f g t

open Classical in
/-- Sum over the selected geos and times. -/
noncomputable def Sel.sum (s : Sel) (f : ℕ → ℕ → ℝ) : ℝ :=
  ∑ g ∈ range s.geos.length with geoSelected s.geos s.gsel g, s.timeSum f g

/-- The paid channels. -/
def Paid : Chan → Prop
  | .media _ | .rf _ => True
  | _ => False

/-- The change of the expected outcome when one channel goes from `s0` to `s1` times its execution. -/
noncomputable def lift (ctx : Ctx) (p : Params) (d : Data) (ch : Chan) (s0 s1 : ℝ)
    (byReach useKpiArg : Bool) : ℕ → ℕ → ℝ := fun g t =>
  expectedOutcome ctx p (treat d ch s1 (fun _ => true) byReach) true useKpiArg g t
    - expectedOutcome ctx p (treat d ch s0 (fun _ => true) byReach) true useKpiArg g t

end Verif.Metrics.Spec
