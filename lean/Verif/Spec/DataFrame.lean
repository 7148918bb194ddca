import Verif.Model.DataFrame

/-!
# What a user expects of the data frame loader
-/

namespace Verif.DataFrame.Spec

open Verif Verif.Builder Verif.DataFrame

/-- The columns of a kind with the channel each is mapped to. -/
def mapped (cols : Option (List String)) (d : Option Dict) : List (String × String) :=
  match cols, d with
  | some l, some d => l.filterMap fun c => (d.lookup c).map fun ch => (c, ch)
  | _, _ => []

/-- Columns that are their own channels. -/
def plain (cols : Option (List String)) : List (String × String) :=
  (cols.getD []).map fun c => (c, c)

/-- The columns from which a component is read, with the channel of each: those the user listed,
under the names the user mapped them to.  Media data are read only together with their spend, and
reach and frequency only together with each other. -/
def columnsOf (L : Loader) : Comp → List (String × String)
  | .kpi => [(L.cols.kpi, "kpi")]
  | .revenuePerKpi => (L.cols.revenuePerKpi.toList).map fun c => (c, "revenue_per_kpi")
  | .controls => plain L.cols.controls
  | .nonMedia => plain L.cols.nonMedia
  | .organicMedia => plain L.cols.organicMedia
  | .media => if L.mediaSpend.isSome then mapped L.cols.media L.media else []
  | .mediaSpend => if L.media.isSome then mapped L.cols.mediaSpend L.mediaSpend else []
  | .reach => if L.frequency.isSome ∧ L.rfSpend.isSome then mapped L.cols.reach L.reach else []
  | .frequency => if L.reach.isSome ∧ L.rfSpend.isSome then mapped L.cols.frequency L.frequency else []
  | .rfSpend => if L.reach.isSome ∧ L.frequency.isSome then mapped L.cols.rfSpend L.rfSpend else []
  | .organicReach => if L.organicFrequency.isSome then mapped L.cols.organicReach L.organicReach else []
  | .organicFrequency =>
    if L.organicReach.isSome then mapped L.cols.organicFrequency L.organicFrequency else []
  | .population => []

/-- A geo as it is named in the result: a single geo is renamed. -/
def GeoName (d : DA) (g name : String) : Prop :=
  name = g ∨ name = nationalGeo ∧ ∀ x ∈ d.geos, x = nationalGeo

/-- The array `d` holds the value `v` for a geo, a time and a channel. -/
def Holds (d : DA) (geo time channel : String) (v : ℚ) : Prop :=
  ∃ (i j k : ℕ) (name : String), GeoName d geo name ∧ d.geos[i]? = some name ∧
    d.times[j]? = some time ∧ d.channels[k]? = some channel ∧ d.vals i j k = some v

end Verif.DataFrame.Spec
