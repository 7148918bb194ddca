import Verif.Model.DataSerde
import Verif.Spec.TimeCoordinates

/-!
# Which input data can be saved, and what is read back
-/

namespace Verif.DataSerde.Spec

open Verif.DataSerde Verif.Calendar Verif.TimeCoordinates.Spec

/-- A time axis: at least two increasing dates, the same number of days, a month, a quarter or a
year apart. -/
structure Axis (dates : List CDate) : Prop where
  valid : ∀ d ∈ dates, d.Valid
  two : 2 ≤ dates.length
  increasing : Increasing dates
  even : (∃ k, ∀ a b, Next dates a b → days a b = k) ∨
    (∀ a b, Next dates a b → 28 ≤ days a b ∧ days a b ≤ 31) ∨
    (∀ a b, Next dates a b → 90 ≤ days a b ∧ days a b ≤ 92) ∨
    (∀ a b, Next dates a b → 365 ≤ days a b ∧ days a b ≤ 366)

/-- A three-dimensional array with the given geos and times, and some names, each once. -/
structure Shape3 (gs ts : List String) (a : Arr3) : Prop where
  geos : a.geos = gs
  times : a.times = ts
  some_key : a.keys ≠ []
  distinct : a.keys.Nodup
  rows : a.vals.length = gs.length
  cols : ∀ r ∈ a.vals, r.length = ts.length
  cells : ∀ r ∈ a.vals, ∀ c ∈ r, c.length = a.keys.length

/-- A two-dimensional array with the given geos and times. -/
structure Shape2 (gs ts : List String) (a : Arr2) : Prop where
  geos : a.geos = gs
  times : a.times = ts
  rows : a.vals.length = gs.length
  cols : ∀ r ∈ a.vals, r.length = ts.length

/-- Spend of the given channels. -/
def SpendShape (geos times keys : List String) : Spend → Prop
  | .granular a => Shape3 geos times a ∧ a.keys = keys
  | .aggregated a => a.keys = keys ∧ a.vals.length = keys.length

/-- No value is NaN. -/
def Numbers (a : Arr3) : Prop := ∀ r ∈ a.vals, ∀ c ∈ r, ∀ v ∈ c, v ≠ none

/-- Names in an optional array. -/
def names (a : Option Arr3) : List String := (a.map Arr3.keys).getD []

/-- Revenue of one per unit of the KPI, for all geos and times. -/
def IsOnes (kpi r : Arr2) : Prop :=
  r.geos = kpi.geos ∧ r.times = kpi.times ∧
    r.vals = List.replicate kpi.geos.length (List.replicate kpi.times.length (some 1))

/-- Input data as they are usually made: `mt` are the media times, and `dates` their dates. -/
structure Ordinary (cal : Cal) (mt : List String) (dates : List CDate) (d : Data) : Prop where
  /-- some geos, each once, with names -/
  geos : d.kpi.geos ≠ [] ∧ d.kpi.geos.Nodup ∧ "" ∉ d.kpi.geos
  /-- the media times are dates, written the way dates are written when they are saved -/
  parsed : mt.map cal.parse = dates.map some
  written : dates.map cal.fmt = mt
  axis : Axis dates
  /-- the times are some of the media times, in the same order -/
  times : d.kpi.times ≠ [] ∧ d.kpi.times.Sublist mt
  kpi : Shape2 d.kpi.geos d.kpi.times d.kpi
  population : d.population.keys = d.kpi.geos ∧ d.population.vals.length = d.kpi.geos.length
  controls : ∀ a ∈ d.controls, Shape3 d.kpi.geos d.kpi.times a
  revenue : ∀ a ∈ d.revenuePerKpi, Shape2 d.kpi.geos d.kpi.times a
  media : ∀ a ∈ d.media, Shape3 d.kpi.geos mt a
  reach : ∀ a ∈ d.reach, Shape3 d.kpi.geos mt a ∧ Numbers a
  frequency : ∀ a ∈ d.frequency, Shape3 d.kpi.geos mt a
  organicMedia : ∀ a ∈ d.organicMedia, Shape3 d.kpi.geos mt a
  organicReach : ∀ a ∈ d.organicReach, Shape3 d.kpi.geos mt a ∧ Numbers a
  organicFrequency : ∀ a ∈ d.organicFrequency, Shape3 d.kpi.geos mt a
  nonMedia : ∀ a ∈ d.nonMedia, Shape3 d.kpi.geos d.kpi.times a
  /-- there are paid media -/
  paid : d.media ≠ none ∨ d.reach ≠ none
  /-- spend, if any, is for the paid channels -/
  mediaSpend : ∀ s ∈ d.mediaSpend, ∃ a, d.media = some a ∧
    SpendShape d.kpi.geos d.kpi.times a.keys s
  rfSpend : ∀ s ∈ d.rfSpend, ∃ a, d.reach = some a ∧ SpendShape d.kpi.geos d.kpi.times a.keys s
  /-- reach and frequency are there together, for the same channels -/
  pairs : (d.reach = none ↔ d.frequency = none) ∧ names d.reach = names d.frequency
  organicPairs : (d.organicReach = none ↔ d.organicFrequency = none) ∧
    names d.organicReach = names d.organicFrequency
  /-- no name is used for two channels -/
  distinct : (names d.media ++ names d.reach ++ names d.organicMedia ++ names d.organicReach).Nodup
  /-- revenue per KPI is one if the KPI is revenue -/
  ones : d.kpiType = .revenue → ∃ r, d.revenuePerKpi = some r ∧ IsOnes d.kpi r
  currency : d.currency ≠ some ""

/-- A number without its fraction. -/
def whole : Num → Num
  | none => none
  | some q => some (if 0 ≤ q then (⌊q⌋ : ℚ) else (⌈q⌉ : ℚ))

/-- The array without the fractions. -/
def wholeArr (a : Arr3) : Arr3 := { a with vals := a.vals.map fun r => r.map fun c => c.map whole }

/-- What is kept: everything, except for the fractions of reach and organic reach. -/
def kept (d : Data) : Data :=
  { d with reach := d.reach.map wholeArr, organicReach := d.organicReach.map wholeArr }

/-- All values are whole numbers. -/
def Whole (a : Arr3) : Prop := ∀ r ∈ a.vals, ∀ c ∈ r, ∀ v ∈ c, ∃ n : ℤ, v = some (n : ℚ)

end Verif.DataSerde.Spec
