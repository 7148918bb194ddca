import Verif.Model.Builder

/-!
# What a user expects of the builder
-/

namespace Verif.Builder.Spec

open Verif Verif.Builder

variable {κ : Type}

/-- The geos of a component: a single geo is renamed. -/
def geosOf (x : Comp × DA) : List String := normGeos x.2.geos

/-- A component that is acceptable on its own. -/
structure WellFormed (env : Env κ) (x : Comp × DA) : Prop where
  geos_distinct : (geosOf x).Nodup
  dates : x.1.kind ≠ .noTime → ∀ t ∈ x.2.times, env.isDate t = true
  times_distinct : x.1.kind ≠ .noTime → x.2.times.Nodup
  times_regular : x.1.kind ≠ .noTime → env.regular (sorted x.2.times) = true

/-- The media times contain the times, and the other media times are earlier. -/
def Lagged (mediaTimes times : List String) : Prop :=
  (∀ t ∈ times, t ∈ mediaTimes) ∧ ∀ m ∈ mediaTimes, m ∉ times → ∀ t ∈ times, m < t

/-- Two components that fit together. -/
structure Compatible (x y : Comp × DA) : Prop where
  different : x.1 ≠ y.1
  geos : ∀ g, g ∈ geosOf x ↔ g ∈ geosOf y
  times : x.1.kind = y.1.kind → x.1.kind ≠ .noTime → ∀ t, t ∈ x.2.times ↔ t ∈ y.2.times
  lagged : x.1.kind = .mediaTime → y.1.kind = .time → Lagged x.2.times y.2.times
  lagged' : x.1.kind = .time → y.1.kind = .mediaTime → Lagged y.2.times x.2.times
  channels : x.1 ∈ y.1.peers → x.2.channels = y.2.channels

/-- A set of components that fits together. -/
def Consistent (env : Env κ) (l : List (Comp × DA)) : Prop :=
  (∀ x ∈ l, WellFormed env x) ∧ l.Pairwise Compatible

/-- The components a model needs. -/
structure Complete (has : Comp → Prop) (national : Prop) : Prop where
  kpi : has .kpi
  population : national ∨ has .population
  media : has .media ↔ has .mediaSpend
  rf : (has .reach ↔ has .frequency) ∧ (has .reach ↔ has .rfSpend)
  organic : has .organicReach ↔ has .organicFrequency
  paid : has .media ∨ has .reach

/-- The array `d` holds the values of the array `e` under the same labels, and no others. -/
structure SameValues (timed : Bool) (e d : DA) : Prop where
  geos : ∀ g, g ∈ d.geos ↔ g ∈ normGeos e.geos
  times : timed = true → ∀ t, t ∈ d.times ↔ t ∈ e.times
  channels : d.channels = e.channels
  value : ∀ (i i' j j' k : ℕ) (g t : String), d.geos[i]? = some g →
    (normGeos e.geos)[i']? = some g →
    (if timed then d.times[j]? = some t ∧ e.times[j']? = some t else j = j') →
    d.vals i j k = e.vals i' j' k

end Verif.Builder.Spec
