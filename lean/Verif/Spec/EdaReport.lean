import Verif.Model.EdaReport

/-!
# Specification: what the summary of the report must say
-/

namespace Verif.EdaReport.Spec

open Classical in
/-- One if the statement holds. -/
noncomputable def cnt (p : Prop) : ℕ := if p then 1 else 0

/-- A row of the summary says: so many fails and so many reviews, "info" if there are none, and a next
step if there are some. -/
def Says (r : SummaryRow) (fails reviews : ℕ) : Prop :=
  (∀ n, .fails n ∈ r.tags ↔ n = fails ∧ 0 < fails) ∧
  (∀ n, .reviews n ∈ r.tags ↔ n = reviews ∧ 0 < reviews) ∧
  (.info ∈ r.tags ↔ fails = 0 ∧ reviews = 0) ∧
  (r.nextStep = true ↔ 0 < fails + reviews)

/-- The check of costs found this. -/
def CostFound (c : Checks) (k : EdaStd.Cause) : Prop := ∃ f ∈ c.cost, f.cause = k ∧ f.severity = .attention

/-- The check of standard deviations found this about a kind of variables. -/
def StdFound (c : Checks) (k : EdaStd.Cause) (subject : EdaStd.Kind) : Prop :=
  ∃ f ∈ c.std, f.cause = k ∧ f.severity = .attention ∧ f.subject = some subject

/-- The KPI does not vary. -/
def KpiFails (c : Checks) : Prop := ∃ f ∈ c.kpi, f.cause = .variability ∧ f.severity = .error

/-- Variables are inflated, with this severity. -/
def VifFound (c : Checks) (s : Eda.Severity) : Prop :=
  ∃ f ∈ c.vif, f.cause = .multicollinearity ∧ f.severity = s

/-- The reviews of a card. -/
noncomputable def reviews (c : Checks) : Card → ℕ
  | .spend => cnt (CostFound c .inconsistent) + cnt (CostFound c .outlier)
  | .response => cnt (StdFound c .variability .treatmentsControls) +
      cnt (StdFound c .outlier .treatmentsControls) +
      cnt (StdFound c .variability .kpi ∧ ¬ KpiFails c)
  | .relationship => cnt (VifFound c .attention)
  | .population => 0
  | .priors => 0
  | .summary => cnt (CostFound c .inconsistent) + cnt (CostFound c .outlier) +
      (cnt (StdFound c .variability .treatmentsControls) +
        cnt (StdFound c .outlier .treatmentsControls) +
        cnt (StdFound c .variability .kpi ∧ ¬ KpiFails c)) + cnt (VifFound c .attention)

/-- The fails of a card. -/
noncomputable def fails (c : Checks) : Card → ℕ
  | .response => cnt (KpiFails c)
  | .relationship => cnt (VifFound c .error)
  | .summary => cnt (KpiFails c) + cnt (VifFound c .error)
  | _ => 0

/-- The cards of a report, in order. -/
def shown (national : Bool) : List Card :=
  if national then [.summary, .spend, .response, .relationship, .priors]
  else [.summary, .spend, .response, .population, .relationship, .priors]

/-- A variable and its partner form a pair in the geo of the row. -/
def Partner (pairs : List Pair) (r : VifRow) (w : String) : Prop :=
  ∃ p ∈ pairs, p.geo = r.geo ∧
    ((p.first = r.name ∧ p.second = w) ∨ (p.second = r.name ∧ p.first = w))

end Verif.EdaReport.Spec
