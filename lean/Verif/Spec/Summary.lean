import Verif.Spec.Results
import Verif.Model.Summary

/-!
# What the summary tables should say
-/

namespace Verif.Summary.Spec

open Verif.Mmm Verif.Mmm.Spec Verif.Selection.Spec Verif.Metrics.Spec

/-- The four statistics of the draws of a quantity. -/
noncomputable def summaryOf (np : Np) (level : ℝ) (draws : List ℝ) : Stat → ℝ
  | .mean => draws.sum / draws.length
  | .median => np.median draws
  | .ciLo => np.quantile draws ((1 - level) / 2)
  | .ciHi => np.quantile draws ((1 + level) / 2)

open Classical in
/-- The selected geos, in the order of the data. -/
noncomputable def geoList (s : Sel) : List ℕ :=
  (List.range s.geos.length).filter fun g => geoSelected s.geos s.gsel g

open Classical in
/-- The selected times, in the order of the data. -/
noncomputable def timeList (s : Sel) : List ℕ :=
  (List.range s.times.length).filter fun t => timeSelected s.norm s.times s.tsel t

/-- The number of entries of an axis: one if it is summed. -/
def parts (aggregate : Bool) (l : List ℕ) : ℕ := if aggregate then 1 else l.length

/-- What entry `i` of an axis covers: everything if it is summed, otherwise item `i`. -/
def part (aggregate : Bool) (l : List ℕ) (i : ℕ) : List ℕ := if aggregate then l else [l.getD i 0]

/-- The cell `(i, j)` of a table exists. -/
def InTable (s : Sel) (a : Args) (i j : ℕ) : Prop :=
  i < parts a.aggregateGeos (geoList s) ∧ j < parts a.aggregateTimes (timeList s)

/-- The sum of a quantity over what the cell `(i, j)` covers. -/
noncomputable def cellSum (s : Sel) (a : Args) (i j : ℕ) (f : ℕ → ℕ → ℝ) : ℝ :=
  ((part a.aggregateGeos (geoList s) i).map fun g =>
    ((part a.aggregateTimes (timeList s) j).map fun t => f g t).sum).sum

/-- The channels of a table, in order. -/
def channels (ctx : Ctx) (a : Args) : List Chan :=
  (List.range ctx.media.n).map .media ++ (List.range ctx.rf.n).map .rf ++
    if a.includeNonPaid then
      (List.range ctx.organicMedia.n).map .organicMedia ++ (List.range ctx.organicRf.n).map .organicRf ++
        (List.range ctx.nNonMedia).map .nonMedia
    else []

/-- A row of the table: a channel, or all channels together. -/
inductive Row where
  | one (ch : Chan)
  | all

/-- The row exists. -/
def Row.Valid (ctx : Ctx) (a : Args) : Row → Prop
  | .one ch => ch ∈ channels ctx a
  | .all => True

/-- Position of a row: the total comes last. -/
def Row.pos (ctx : Ctx) (a : Args) : Row → ℕ
  | .one ch => ch.pos ctx
  | .all => (channels ctx a).length

/-- A quantity of a row: of the channel, or the sum over all channels of the table. -/
noncomputable def Row.sum (ctx : Ctx) (a : Args) (f : Chan → ℝ) : Row → ℝ
  | .one ch => f ch
  | .all => ((channels ctx a).map f).sum

/-- The effect of a channel on the expected outcome: against not running, or, for a non-media treatment,
against its baseline. -/
noncomputable def effect (ctx : Ctx) (p : Params) (d : Data) (baseline : ℕ → ℝ) (useKpiArg : Bool) :
    Chan → ℕ → ℕ → ℝ
  | .nonMedia c => fun g t => expectedOutcome ctx p d true useKpiArg g t
      - expectedOutcome ctx p (atBaseline ctx d c baseline) true useKpiArg g t
  | ch => lift ctx p d ch 0 1 true useKpiArg

/-- The media units of a channel in period `t`: media units, impressions, or values of the treatment.
Media data starts before the first period of the KPI. -/
noncomputable def unitsOf (ctx : Ctx) (d : Data) : Chan → ℕ → ℕ → ℝ
  | .media c => fun g t => d.media g (ctx.nMediaTimes - ctx.nTimes + t) c
  | .rf c => fun g t => d.reach g (ctx.nMediaTimes - ctx.nTimes + t) c
      * d.frequency g (ctx.nMediaTimes - ctx.nTimes + t) c
  | .organicMedia c => fun g t => d.organicMedia g (ctx.nMediaTimes - ctx.nTimes + t) c
  | .organicRf c => fun g t => d.organicReach g (ctx.nMediaTimes - ctx.nTimes + t) c
      * d.organicFrequency g (ctx.nMediaTimes - ctx.nTimes + t) c
  | .nonMedia c => fun g t => d.nonMedia g t c

end Verif.Summary.Spec
