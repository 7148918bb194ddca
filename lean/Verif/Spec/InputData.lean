import Verif.Model.InputData

/-!
# What consistent input data are
-/

namespace Verif.InputData.Spec

open Verif.InputData

/-- The dimensions of the array, in any order. -/
def HasDims (a : Arr) (ds : List String) : Prop := ∀ x, x ∈ a.dims ↔ x ∈ ds

/-- The arrays among the given ones that are present. -/
def Present (l : List (Option Arr)) (a : Arr) : Prop := some a ∈ l

/-- A revenue per KPI of one for all geos and times. -/
def ones (kpi : Arr) : Arr where
  name := "revenue_per_kpi"
  dims := ["geo", "time"]
  coord := kpi.coord
  vals := List.replicate ((kpi.coord "geo").length * (kpi.coord "time").length) (some 1)

/-- The data as they are used: revenue per KPI is one if the KPI is revenue. -/
def used (d : Input) : Input :=
  if d.kpiType = "revenue" then { d with revenuePerKpi := some (ones d.kpi) } else d

/-- All arrays with their names and their possible dimensions. -/
def table (d : Input) : List (Option Arr × String × List (List String)) :=
  [(some d.kpi, "kpi", [["geo", "time"]]),
    (some d.population, "population", [["geo"]]),
    (d.controls, "controls", [["geo", "time", "control_variable"]]),
    (d.revenuePerKpi, "revenue_per_kpi", [["geo", "time"]]),
    (d.media, "media", [["geo", "media_time", "media_channel"]]),
    (d.mediaSpend, "media_spend", [["media_channel"], ["geo", "time", "media_channel"]]),
    (d.reach, "reach", [["geo", "media_time", "rf_channel"]]),
    (d.frequency, "frequency", [["geo", "media_time", "rf_channel"]]),
    (d.rfSpend, "rf_spend", [["rf_channel"], ["geo", "time", "rf_channel"]]),
    (d.organicMedia, "organic_media", [["geo", "media_time", "organic_media_channel"]]),
    (d.organicReach, "organic_reach", [["geo", "media_time", "organic_rf_channel"]]),
    (d.organicFrequency, "organic_frequency", [["geo", "media_time", "organic_rf_channel"]]),
    (d.nonMedia, "non_media_treatments", [["geo", "time", "non_media_channel"]])]

/-- All arrays. -/
def arrays (d : Input) : List (Option Arr) := (table d).map Prod.fst

/-- Names of the channels of an optional array. -/
def names (a : Option Arr) (dim : String) : List String := (a.map fun a => a.coord dim).getD []

/-- All channels, of whatever type. -/
def channels (d : Input) : List String :=
  names d.media "media_channel" ++ names d.reach "rf_channel" ++
    names d.organicMedia "organic_media_channel" ++ names d.organicReach "organic_rf_channel" ++
    names d.nonMedia "non_media_channel"

/-- What is checked of the data. -/
structure Consistent (isDate : String → Bool) (regular : List String → Bool) (d : Input) : Prop where
  /-- the values are numbers -/
  noNa : ∀ a, Present (arrays d) a → none ∉ a.vals
  kpiType : d.kpiType = "revenue" ∨ d.kpiType = "non_revenue"
  /-- revenue per KPI, if given, is not zero everywhere -/
  revenue : ∀ r, d.revenuePerKpi = some r → ∃ v ∈ r.vals, v ≠ some 0
  /-- names and dimensions -/
  shape : ∀ x ∈ Spec.table (used d), ∀ a, x.1 = some a →
    a.name = x.2.1 ∧ ∃ ds ∈ x.2.2, HasDims a ds
  /-- the same geos in the same order, each once, in all arrays but the spend arrays -/
  geos : ∀ x ∈ Spec.table (used d), x.2.1 ≠ "media_spend" → x.2.1 ≠ "rf_spend" →
    ∀ a, x.1 = some a → a.coord "geo" = d.kpi.coord "geo"
  geosUnique : (d.kpi.coord "geo").Nodup
  /-- as many times -/
  times : ∀ a, Present [(used d).revenuePerKpi, d.controls, d.nonMedia] a →
    (a.coord "time").length = (d.kpi.coord "time").length
  /-- the same channels in the same order -/
  mediaChannels : ∀ a b, d.media = some a → d.mediaSpend = some b →
    a.coord "media_channel" = b.coord "media_channel"
  rfChannels : ∀ a b, Present [d.reach, d.frequency, d.rfSpend] a →
    Present [d.reach, d.frequency, d.rfSpend] b → a.coord "rf_channel" = b.coord "rf_channel"
  organicRfChannels : ∀ a b, d.organicReach = some a → d.organicFrequency = some b →
    a.coord "organic_rf_channel" = b.coord "organic_rf_channel"
  /-- paid media -/
  paid : d.media ≠ none ∨ d.reach ≠ none
  /-- no name is used twice -/
  channelsUnique : (channels d).Nodup
  /-- the times are dates -/
  dates : ∀ a, Present (arrays (used d)) a →
    ∀ c ∈ ["time", "media_time"], c ∈ a.dims → ∀ t ∈ a.coord c, isDate t = true
  /-- no array has fewer media times than there are times -/
  mediaTimes : ∀ a, Present [d.media, d.reach, d.frequency, d.organicMedia, d.organicReach,
    d.organicFrequency] a → (d.kpi.coord "time").length ≤ (a.coord "media_time").length
  regularTimes : regular (d.kpi.coord "time") = true
  regularMediaTimes : ∀ a, (d.media = some a ∨ d.media = none ∧ d.reach = some a) →
    regular (a.coord "media_time") = true
  /-- no negative KPI, revenue per KPI, spend, reach or frequency -/
  nonNegative : ∀ a, Present [some d.kpi, (used d).revenuePerKpi, d.mediaSpend, d.rfSpend, d.reach,
    d.frequency, d.organicReach, d.organicFrequency] a → ∀ q, some q ∈ a.vals → 0 ≤ q

end Verif.InputData.Spec
