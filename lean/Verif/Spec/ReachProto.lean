import Verif.Model.ReachProto
import Verif.Spec.BudgetProto
import Verif.Spec.DatedSpec

/-!
# What a reach and frequency optimization message should contain
-/

namespace Verif.ReachProto.Spec

open Verif (Num)
open Verif.Calendar (CDate)
open Verif.FitProto (Estimate)
open Verif.MarketingProto (Stat Outcome Media)
open Verif.DatedSpec.Spec (InRange)
open Verif.BudgetProto.Spec (Shows ShowsSome Range)

/-- A multiple of one tenth. -/
def Tenth (x : ℚ) : Prop := ∃ n : ℤ, x = n / 10

/-- `y` is a multiple of one tenth nearest to `x`. -/
def Nearest (x y : ℚ) : Prop := Tenth y ∧ |y - x| ≤ 1 / 20

/-- All the multiples of one tenth from `lo` to `hi`, each once, increasing. -/
def Tenths (lo hi : ℚ) (l : List ℚ) : Prop :=
  l.Pairwise (· < ·) ∧ ∀ x, x ∈ l ↔ Tenth x ∧ lo ≤ x ∧ x ≤ hi

/-- The upper end of the range of frequencies: that of the spec or else that of the model. -/
def Upper (s : RSpec) (model u : ℚ) : Prop := s.max = some u ∨ (s.max = none ∧ u = model)

/-- The dates a spec selects. -/
def Selects (dates : List CDate) (s : DatedSpec.Spec) (sel : Option (List CDate)) : Prop :=
  sel.getD dates = dates.filter fun d => decide (InRange s.start s.stop d)

/-- The search a spec asks for. -/
structure Asks (A : Analyzer) (s : RSpec) (a : FreqArgs) : Prop where
  selected : Selects A.dates s.dated a.selected
  level : a.level = s.level
  kpi : a.useKpi = !s.revenue
  grid : ∀ u, Upper s A.maxFrequency u → ∃ lo hi, Nearest s.min lo ∧ Nearest u hi ∧ Tenths lo hi a.grid

/-- The response curves a spec asks for: by frequency, at the optimal frequency. -/
structure AsksCurves (A : Analyzer) (s : RSpec) (a : CurveArgs) : Prop where
  selected : Selects A.dates s.dated a.selected
  level : a.level = s.level
  kpi : a.useKpi = !s.revenue
  byFrequency : a.byReach = false
  optimal : a.optimalFrequency = true

/-- `n` is `x` without its fraction. -/
def WholePart (x : ℚ) (n : ℤ) : Prop := (0 ≤ x → (n : ℚ) ≤ x ∧ x < n + 1) ∧ (x < 0 → x ≤ n ∧ (n : ℚ) < x + 1)

/-- Impressions of the channel at a position: frequency times reach, over all geos and media periods. -/
def impressions (A : Analyzer) (c : ℕ) : ℚ :=
  ∑ g ∈ Finset.range A.nGeos, ∑ t ∈ Finset.range A.nTimes, A.frequency g t c * A.reach g t c

/-- The message of a channel of the search. -/
structure Channel (d : FreqData) (r : Curves) (sp : List (String × ℚ)) (ch : String) (m : Media) : Prop where
  name : m.name = ch
  spend : ∃ x share, (ch, x) ∈ sp ∧ m.spend = some (some x, share) ∧
    ((sp.map Prod.snd).sum ≠ 0 → share = some (100 * x / (sp.map Prod.snd).sum))
  outcome : ∃ o, m.outcomes = [o] ∧ o.revenue = d.revenue ∧ o.share = none ∧
    Shows (d.optimized ch .incremental) d.level o.value ∧
    ShowsSome (d.optimized ch .roi) d.level o.roi ∧
    ShowsSome (d.optimized ch .mroiByFrequency) d.level o.mroi ∧
    ShowsSome (d.optimized ch .cpik) d.level o.cpik ∧
    ShowsSome (d.optimized ch .effectiveness) d.level o.effectiveness
  curve : m.curve = some (r.multipliers.map fun x => (r.spend ch x, r.incremental ch x .mean))

/-- The cell of a channel, given by its position, at a frequency. -/
structure AtFrequency (A : Analyzer) (d : FreqData) (level : ℚ) (c : ℕ) (ch : String) (f : ℚ) (x : Cell) :
    Prop where
  frequency : x.frequency = f
  outcome : Shows (d.roi f ch) level x.outcome
  reach : f ≠ 0 ∧ WholePart (impressions A c / f) x.reach

/-- The message of a search. -/
structure Reports (A : Analyzer) (rf : List String) (s : RSpec) (k : ℕ) (d : FreqData) (r : Curves)
    (sp : List (String × ℚ)) (m : ResultMsg) : Prop where
  name : m.name = s.name
  group : m.group = s.group.getD ""
  range : Range A.dates k s.dated m.spec.interval
  kpi : m.spec.revenue = s.revenue
  bounds : ∀ u, Upper s A.maxFrequency u → List.Forall₂ (fun ch b => b.name = ch ∧ Nearest s.min b.min ∧
    Nearest u b.max) rf m.spec.bounds
  frequencies : m.frequencies = d.channels.map fun ch => (ch, d.optimal ch)
  dates : m.analysis.interval.start = m.spec.interval.start ∧ m.analysis.interval.stop = m.spec.interval.stop
  media : List.Forall₂ (Channel d r sp) d.channels m.analysis.media
  gridName : m.grid.name = s.gridName
  step : m.grid.step = 1 / 10
  cells : m.grid.cells.length = d.channels.length ∧ ∀ (c : ℕ) ch, d.channels[c]? = some ch →
    ∃ l, m.grid.cells[c]? = some (ch, l) ∧ List.Forall₂ (AtFrequency A d s.level c ch) d.frequencies l

/-- The KPI of a model: revenue, units with a value, or units without one. -/
inductive Kpi where
  | revenue
  | valued
  | units
deriving DecidableEq

/-- An analyzer that answers as `Analyzer` does: `optimal_freq` computes the ROI on the grid it is given and
reports a frequency of it with the highest mean ROI among those that have one. -/
structure Faithful (A : Analyzer) (rf : List String) (kpi : Kpi) : Prop where
  model : A.rf = some rf
  names : rf.Nodup
  channels : ∀ a d, A.optimalFreq a = .ok d → d.channels = rf ∧ d.frequencies = a.grid ∧ d.level = a.level
  revenue : ∀ a d, A.optimalFreq a = .ok d →
    d.revenue = (match kpi with | .revenue => true | .valued => !a.useKpi | .units => false)
  best : ∀ a d, A.optimalFreq a = .ok d → ∀ ch ∈ rf, d.optimal ch ∈ a.grid ∧
    ∃ v, d.roi (d.optimal ch) ch .mean = some v ∧
      ∀ f ∈ a.grid, ∀ w, d.roi f ch .mean = some w → w ≤ v

/-- Nothing is missing in the data of an analyzer: a search over some frequencies finds an optimum, and
spend and response curves cover the channels. -/
structure Ready (A : Analyzer) (rf : List String) : Prop where
  search : ∀ a, (∃ d, A.optimalFreq a = .ok d) ↔ a.grid ≠ []
  curves : ∀ a, ∃ r, A.curves a = .ok r ∧ ∀ ch ∈ rf, ch ∈ r.channels
  spend : ∀ sel, ∀ ch ∈ rf, ∃ x, (ch, x) ∈ A.spend sel

end Verif.ReachProto.Spec
