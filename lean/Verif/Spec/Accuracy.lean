import Verif.Model.Accuracy

/-!
# What the goodness-of-fit metrics mean
-/

namespace Verif.Accuracy.Spec

/-- An observation: what happened and what the model expected. -/
structure Obs where
  actual : ℚ
  pred : ℚ

/-- Sum of squared prediction errors. -/
def sse (l : List Obs) : ℚ := (l.map fun o => (o.actual - o.pred) ^ 2).sum

/-- Average of the actual values. -/
def meanActual (l : List Obs) : ℚ := (l.map Obs.actual).sum / l.length

/-- Sum of squared deviations of the actual values from their average. -/
def sst (l : List Obs) : ℚ := (l.map fun o => (o.actual - meanActual l) ^ 2).sum

/-- R-squared: `1 - SSE/SST`.  Undefined without observations; for actual values that are all equal
it is undefined or, if the prediction is not perfect, minus infinity. -/
def rsq (l : List Obs) : Fl :=
  if sst l = 0 then (if sse l = 0 then .nan else .ninf) else .fin (1 - sse l / sst l)

/-- The observations whose percentage error is a number. -/
def nonzero (l : List Obs) : List Obs := l.filter fun o => o.actual ≠ 0

/-- Mean absolute percentage error: infinite if something was predicted where nothing happened,
otherwise the average of `|actual - predicted| / |actual|` over the observations with an actual
value other than 0. -/
def mape (l : List Obs) : Fl :=
  if ∃ o ∈ l, o.actual = 0 ∧ o.pred ≠ 0 then .pinf
  else if nonzero l = [] then .nan
  else .fin (((nonzero l).map fun o => |o.actual - o.pred| / |o.actual|).sum / (nonzero l).length)

/-- Weighted MAPE: total absolute error over the total of the actual values. -/
def wmape (l : List Obs) : Fl :=
  if (l.map Obs.actual).sum = 0 then
    (if ∀ o ∈ l, o.actual = o.pred then .nan else .pinf)
  else .fin ((l.map fun o => |o.actual - o.pred|).sum / (l.map Obs.actual).sum)

/-- The three metrics of a set of observations. -/
def metrics (l : List Obs) : Row := ⟨rsq l, mape l, wmape l⟩

/-- The positions of the names that are selected (all, without a selection), in the order of the
data. -/
def chosen (names : List String) : Option (List String) → List ℕ
  | none => List.range names.length
  | some sel => (List.range names.length).filter fun i => decide (names.getD i "" ∈ sel)

/-- The positions of the times that the dates `l` name, in whatever accepted form. -/
def named (norm : String → Option String) (times l : List String) : List ℕ :=
  (List.range times.length).filter fun i => l.any fun s => norm s == norm (times.getD i "")

/-- One observation for each geo and time that `keep` keeps. -/
def geoObs (c : Ctx) (gs ts : List ℕ) (keep : ℕ → ℕ → Bool) : List Obs :=
  gs.flatMap fun g => (ts.filter fun t => keep g t).map fun t => ⟨c.outcome g t, c.expected g t⟩

/-- One observation for each time: the totals over the geos that `keep` keeps, for the times where
it keeps any. -/
def nationalObs (c : Ctx) (gs ts : List ℕ) (keep : ℕ → ℕ → Bool) : List Obs :=
  (ts.filter fun t => gs.any fun g => keep g t).map fun t =>
    ⟨((gs.filter fun g => keep g t).map fun g => c.outcome g t).sum,
     ((gs.filter fun g => keep g t).map fun g => c.expected g t).sum⟩

/-- The observations of a granularity. -/
def obs (c : Ctx) (gs ts : List ℕ) (gran : Gran) (keep : ℕ → ℕ → Bool) : List Obs :=
  match gran with
  | .geo => geoObs c gs ts keep
  | .national => nationalObs c gs ts keep

/-- What belongs to an evaluation set, for the holdout `held`. -/
def inSet (held : ℕ → ℕ → Bool) : EvalSet → ℕ → ℕ → Bool
  | .train, g, t => !held g t
  | .test, g, t => held g t
  | .all, _, _ => true

/-- The granularities that are reported. -/
def grans (c : Ctx) : List Gran := if c.national then [.national] else [.geo, .national]

/-- The table to be returned for the holdout `held` (none: no split). -/
def table (c : Ctx) (gs ts : List ℕ) (held : Option (ℕ → ℕ → Bool)) : Dataset :=
  (grans c).flatMap fun gran =>
    match held with
    | none => [((gran, none), metrics (obs c gs ts gran fun _ _ => true))]
    | some h => [EvalSet.train, .test, .all].map fun e =>
        ((gran, some e), metrics (obs c gs ts gran (inSet h e)))

/-- A context as the model builds it: a national model has one geo. -/
def WellFormed (c : Ctx) : Prop := c.national = true → c.geos.length = 1

end Verif.Accuracy.Spec
