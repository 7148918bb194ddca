import Verif.Model.MarketingProto

/-!
# What a marketing analysis should contain
-/

namespace Verif.MarketingProto.Spec

open Verif (Num)
open Verif.Calendar (CDate)
open Verif.FitProto (Estimate)

/-- An estimate shows the statistic `m` of some values and their interval at a level. -/
def Shows (v : Stat → Num) (level : ℚ) (m : Stat) (e : Estimate) : Prop :=
  e.value = v m ∧ e.probability = level ∧ e.lower = v .low ∧ e.upper = v .high

/-- An optional field is there if and only if the variable is, and then shows it. -/
def Field (x : Option (Stat → Num)) (level : ℚ) (m : Stat) (e : Option Estimate) : Prop :=
  (x = none ↔ e = none) ∧ ∀ v est, x = some v → e = some est → Shows v level m est

/-- Percentages as fractions. -/
def fraction (x : Option (Stat → Num)) : Option (Stat → Num) :=
  x.map fun v s => (v s).map fun q => q / 100

/-- An outcome of a channel: the mean of the incremental outcome, of its share as a fraction and of the
return, the median of the cost per incremental KPI; effectiveness and marginal return only for a single
channel. -/
structure Reports (c : Cell) (revenue : Bool) (name : String) (level : ℚ) (o : Outcome) : Prop where
  kpi : o.revenue = revenue
  value : ∃ v, c .incremental = some v ∧ Shows v level .mean o.value
  share : Field (fraction (c .contribution)) level .mean o.share
  roi : Field (c .roi) level .mean o.roi
  cpik : Field (c .cpik) level .median o.cpik
  effectiveness : if name = "All Channels" then o.effectiveness = none
    else Field (c .effectiveness) level .mean o.effectiveness
  mroi : if name = "All Channels" then o.mroi = none else Field (c .mroi) level .mean o.mroi

/-- The spend and its share (as a fraction) of a cell, if it has them. -/
def Spends (c : Cell) (s : Option (Num × Num)) : Prop :=
  (c .spend = none ∧ s = none) ∨
    ∃ v p, c .spend = some v ∧ c .spendShare = some p ∧ s = some (v .mean, (p .mean).map fun q => q / 100)

/-- The outcomes of a model, as values of `use_kpi`: the KPI alone if there is no revenue, revenue alone if
the KPI is revenue, and otherwise revenue, then the KPI. -/
def kinds {δ : Type} (A : Analyzer δ) : List Bool :=
  if A.kpiOnly then [true] else if A.revenueKpi then [false] else [false, true]

/-- The datasets of the analyzer have the channels of the model, in order, and a time coordinate exactly
if times are not aggregated; the names are distinct. -/
structure Sound {δ : Type} (A : Analyzer δ) : Prop where
  names : (A.paid ++ A.nonPaid ++ ["All Channels"]).Nodup
  kpi : A.kpiOnly = true → A.revenueKpi = false
  channels : ∀ a d, (A.summary a d).channels =
    (if a.nonPaid then A.paid ++ A.nonPaid else A.paid) ++ ["All Channels"]
  times : ∀ a d, (A.summary a d).times.isSome = !a.aggregate
  baseline : ∀ a d, (A.baseline a d).times.isSome = !a.aggregate
  curves : ∀ a, (A.curves a).channels = A.paid

/-- The place in the dataset: the first day of the interval unless times are aggregated. -/
def place (aggregate : Bool) (i : DatedSpec.Interval) : Option CDate :=
  if aggregate then none else some i.start

/-- The posterior summary metrics a media spec asks for. -/
def summaryOf {δ : Type} (A : Analyzer δ) (s : MSpec δ) (m : MediaSpec δ) (selected : Option (List CDate))
    (useKpi nonPaid : Bool) : Dataset :=
  A.summary { mroiByReach := m.mroiByReach, selected := selected, aggregateGeos := true,
              aggregate := m.aggregate, newData := m.newData, level := s.level, useKpi := useKpi,
              nonPaid := nonPaid } .posterior

/-- The times asked for and, besides, what the datasets must hold for messages to be made of them. -/
structure Complete {δ : Type} (A : Analyzer δ) : Prop where
  times : ∀ a d, (A.summary a d).times = if a.aggregate then none else some (a.selected.getD A.dates)
  baseline : ∀ a d, (A.baseline a d).times = if a.aggregate then none else some (a.selected.getD A.dates)
  incremental : ∀ a d ch t, ((A.summary a d).cell ch t .incremental).isSome
  spend : ∀ a d ch t, ((A.summary a d).cell ch t .spend).isSome → ((A.summary a d).cell ch t .spendShare).isSome
  outcome : ∀ a d ch t, ((A.baseline a d).cell ch t .baseline).isSome
  share : ∀ a d ch t, ((A.baseline a d).cell ch t .contribution).isSome

end Verif.MarketingProto.Spec
