import Verif.Model.Eda
import Verif.Model.EdaStd

/-!
# The report of the exploratory data analysis: what it counts

`MeridianEDA.generate_and_save_report` of `meridian/model/eda/meridian_eda.py` with the cards it is made
of.  Of a card its number of callouts by severity is kept; charts, texts and the page around them are
left out (C102 models the tables and charts).  Every finding of the
checks carries the artifact of its check, so the tests `isinstance(finding.associated_artifact, …)` hold
(`meridian/model/eda/eda_engine.py` makes all of them with their artifact).
-/

namespace Verif.EdaReport

/-- The findings of the checks for the level of the data. -/
structure Checks where
  national : Bool
  /-- `check_cost_per_media_unit` -/
  cost : List EdaStd.Finding
  /-- `check_std` -/
  std : List EdaStd.Finding
  /-- `check_overall_kpi_invariability` -/
  kpi : List Eda.Finding
  /-- `check_vif` -/
  vif : List Eda.Finding
  /-- `check_pairwise_corr` -/
  pairwise : List Eda.Finding

inductive Err
  /-- more than one finding where one is expected -/
  | ambiguous
deriving DecidableEq

/-- `_get_finding`, `meridian/model/eda/meridian_eda.py:2128-2171`. -/
def getFinding {α : Type} (p : α → Bool) (l : List α) : Except Err (Option α) :=
  let found := l.filter p
  if 1 < found.length then .error .ambiguous else .ok found.head?

/-- `_initialize_severity_counts`, `meridian/model/eda/meridian_eda.py:2201-2206`. -/
structure Counts where
  attention : ℕ := 0
  error : ℕ := 0
deriving DecidableEq

/-- The sum of the counts, `meridian/model/eda/meridian_eda.py:360-365`. -/
def Counts.add (a b : Counts) : Counts := ⟨a.attention + b.attention, a.error + b.error⟩

/-- One if there is a finding. -/
def one {α : Type} (o : Option α) : ℕ := if o.isSome then 1 else 0

/-- `_generate_spend_and_media_unit_callouts`, `meridian/model/eda/meridian_eda.py:1330-1375`; the other
callout of the card, of the data per parameter (1281-1328), is information and counts nothing. -/
def spendCounts (c : Checks) : Except Err Counts := do
  let inconsistency ← getFinding (fun f => f.cause = .inconsistent ∧ f.severity = .attention) c.cost
  let outlier ← getFinding (fun f => f.cause = .outlier ∧ f.severity = .attention) c.cost
  return ⟨one inconsistency + one outlier, 0⟩

/-- `_generate_response_variables_callouts`, `meridian/model/eda/meridian_eda.py:1503-1579`. -/
def responseCounts (c : Checks) : Except Err Counts := do
  let kpiError ← getFinding (fun f => f.cause = .variability ∧ f.severity = .error) c.kpi
  let kpiAttention ← getFinding
    (fun f => f.cause = .variability ∧ f.severity = .attention ∧ f.subject = some .kpi) c.std
  let variability ← getFinding
    (fun f => f.cause = .variability ∧ f.severity = .attention ∧ f.subject = some .treatmentsControls)
    c.std
  let outlier ← getFinding
    (fun f => f.cause = .outlier ∧ f.severity = .attention ∧ f.subject = some .treatmentsControls) c.std
  return ⟨one variability + one outlier + (if kpiAttention.isSome && !kpiError.isSome then 1 else 0),
    one kpiError⟩

/-- `_generate_relationship_among_variables_callouts`, `meridian/model/eda/meridian_eda.py:1779-1816`,
with the findings `_combine_extreme_vif_with_extreme_corr_pairs` looks up (lines 1742-1777, called for
each callout). -/
def relationshipCounts (c : Checks) : Except Err Counts := do
  let error ← getFinding (fun f => f.cause = .multicollinearity ∧ f.severity = .error) c.vif
  let attention ← getFinding (fun f => f.cause = .multicollinearity ∧ f.severity = .attention) c.vif
  if error.isSome then
    let _ ← getFinding (fun f => f.cause = .multicollinearity ∧ f.severity = .error) c.pairwise
  if attention.isSome then
    let _ ← getFinding (fun f => f.cause = .multicollinearity ∧ f.severity = .attention) c.pairwise
  return ⟨one attention, one error⟩

inductive Card
  | summary
  | spend
  | response
  | population
  | relationship
  | priors
deriving DecidableEq

/-- The cards in the order they are made with their counts; `none` for a card that is left out,
`meridian/model/eda/meridian_eda.py:330-352`, 1245-1279, 1459-1501, 1657-1702 (left out of a national
model), 1704-1740 and 1944-1972. -/
def cards (c : Checks) : List (Card × Except Err (Option Counts)) :=
  [(.spend, (spendCounts c).map some), (.response, (responseCounts c).map some),
   (.population, .ok (if c.national then none else some {})),
   (.relationship, (relationshipCounts c).map some), (.priors, .ok (some {}))]

/-- The loop over the cards, `meridian/model/eda/meridian_eda.py:353-365`: the rows of the shown cards and
the sum for the summary. -/
def loop : List (Card × Except Err (Option Counts)) → Counts → Except Err (List (Card × Counts) × Counts)
  | [], total => .ok ([], total)
  | (_, .error e) :: _, _ => .error e
  | (_, .ok none) :: rest, total => loop rest total
  | (card, .ok (some n)) :: rest, total => do
    let (rows, total') ← loop rest (total.add n)
    return ((card, n) :: rows, total')

/-- What the table of the summary card says in a row. -/
inductive Tag
  | fails (n : ℕ)
  | reviews (n : ℕ)
  | info
deriving DecidableEq

/-- The tags of a row, `meridian/model/eda/meridian_eda.py:1197-1217`. -/
def tags (n : Counts) : List Tag :=
  let found := (if 0 < n.error then [Tag.fails n.error] else []) ++
    (if 0 < n.attention then [Tag.reviews n.attention] else [])
  if found = [] then [.info] else found

/-- A row of the summary: its card, its tags, and whether a next step is recommended. -/
structure SummaryRow where
  card : Card
  tags : List Tag
  nextStep : Bool
deriving DecidableEq

/-- `_generate_summary_card`, `meridian/model/eda/meridian_eda.py:1187-1227`, with the counts of
`_generate_report_html` (318-373): the summary is the first category
(`meridian/model/eda/constants.py:363-390`). -/
def report (c : Checks) : Except Err (List SummaryRow) := do
  let (rows, total) ← loop (cards c) {}
  return ((Card.summary, total) :: rows).map fun r =>
    ⟨r.1, tags r.2, decide (r.2.error ≠ 0) || decide (r.2.attention ≠ 0)⟩

/-- The findings of the checks for given data: `MeridianEDA.eda_engine`'s checks for the level of the
data, `meridian/model/eda/meridian_eda.py:213-305`. -/
noncomputable def checksOf (d : Eda.Data) (s : Eda.Spec) (e : EdaStd.Engine)
    (cost : EdaStd.Level → EdaStd.CostData) : Checks where
  national := d.national
  cost := (EdaStd.checkCost (if d.national then .national else .geo)
    (cost (if d.national then .national else .geo))).1
  std := (EdaStd.outcome e (if d.national then .national else .geo)).1
  kpi := (Eda.checkKpi d s).findings
  vif := (Eda.checkVif d s).findings
  pairwise := (Eda.checkPairwiseCorr d s).findings

/-! ## The table of inflated variables -/

/-- A row: the geo (`none` in a table over all geos), the variable and its factor. -/
structure VifRow where
  geo : Option String
  name : String
  vif : ℚ
deriving DecidableEq

/-- A pair with extreme correlation. -/
structure Pair where
  geo : Option String
  first : String
  second : String
deriving DecidableEq

/-- `setdefault(key, []).append(partner)` for a key in the table,
`meridian/model/eda/meridian_eda.py:1768-1771`. -/
def addPartner (table : List VifRow) (key : Option String × String) (partner : String)
    (m : Option String × String → List String) : Option String × String → List String :=
  if ∃ r ∈ table, (r.geo, r.name) = key then
    fun k => if k = key then m k ++ [partner] else m k
  else m

/-- `_combine_extreme_vif_with_extreme_corr_pairs`, `meridian/model/eda/meridian_eda.py:1742-1777`: the
rows with the partners of their variable; `pairs` are the pairs of the finding of the same severity,
`none` if there is no such finding. -/
def combine (table : List VifRow) (pairs : Option (List Pair)) : List (VifRow × List String) :=
  let m := (pairs.getD []).foldl
    (fun m p => addPartner table (p.geo, p.second) p.first
      (addPartner table (p.geo, p.first) p.second m)) (fun _ => [])
  table.map fun r => (r, m (r.geo, r.name))

/-- The rows of the callout for single geos, `meridian/model/eda/meridian_eda.py:1850-1854`: variables
that failed over all geos are left out. -/
def attentionRows (failed : List String) (table : List VifRow) : List VifRow :=
  table.filter fun r => r.name ∉ failed

/-- The finding of single geos of `check_geo_pairwise_corr`, `meridian/model/eda/eda_engine.py:1640-1675`:
made only if a pair of a geo is not a pair over all geos, it then holds all pairs of single geos. -/
def attentionPairs (overall geo : List Pair) : Option (List Pair) :=
  if geo.any fun p => overall.all fun q => ¬ (q.first = p.first ∧ q.second = p.second)
  then some geo else none

/-- The findings of `check_geo_vif`, `meridian/model/eda/eda_engine.py:2072-2120`: the one over all geos,
and the one of single geos, made only if a variable of a geo is not extreme over all geos. -/
def vifFindings (overall geo : List VifRow) : Option (List VifRow) × Option (List VifRow) :=
  (if overall = [] then none else some overall,
   if geo.any fun p => overall.all fun q => q.name ≠ p.name then some geo else none)

/-- The two callouts of `_generate_relationship_among_variables_callouts` with their rows before they are
sorted and cut, `meridian/model/eda/meridian_eda.py:1779-1874`. -/
def vifCallouts (findings : Option (List VifRow) × Option (List VifRow))
    (errorPairs attention : Option (List Pair)) :
    Option (List (VifRow × List String)) × Option (List (VifRow × List String)) :=
  let failed := (findings.1.getD []).map VifRow.name
  (findings.1.map fun t => combine t errorPairs,
   findings.2.map fun t => combine (attentionRows failed t) attention)

/-! ## Saving -/

/-- The files by path. -/
abbrev Files := String → Option String

/-- `generate_and_save_report`, `meridian/model/eda/meridian_eda.py:307-316`: the file is opened for
writing, which empties it, before the report is made; `generated` is what making the report gives. -/
def save {ε : Type} (fs : Files) (path : String) (generated : Except ε String) : Files × Except ε Unit :=
  let opened : Files := fun p => if p = path then some "" else fs p
  match generated with
  | .error e => (opened, .error e)
  | .ok html => (fun p => if p = path then some html else opened p, .ok ())

end Verif.EdaReport
