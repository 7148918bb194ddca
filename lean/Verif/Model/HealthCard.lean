import Verif.Model.Review
import Verif.Model.Page

/-!
# The texts and the page of a review

`meridian/analysis/review/results.py` (the messages of the results, the printed review and the health card),
`meridian/templates/formatter.py` and `meridian/templates/*.jinja`.  White space between tags and the fixed
parts of the page around the cards are left out.
-/

namespace Verif.HealthCard

open Verif.Formatter Verif.Review Verif.Page
open Verif.Accuracy (Fl)

/-- A text of the program. -/
@[irreducible] def lit (s : String) : Text := s.toList

/-- Python `sep.join(l)`. -/
def joinWith (sep : Text) : List Text → Text
  | [] => []
  | [a] => a
  | a :: b :: l => a ++ sep ++ joinWith sep (b :: l)

/-- A name between back quotes. -/
def quoted (n : String) : Text := ['`'] ++ n.toList ++ ['`']

/-- `', '.join(f'`{channel}`' for channel in channels)`. -/
def nameList (l : List String) : Text := joinWith (lit ", ") (l.map quoted)

/-- R-squared, MAPE and weighted MAPE, `GoodnessOfFitMetrics`,
`meridian/analysis/review/results.py:363-375`. -/
structure Fit where
  rsq : Fl
  mape : Fl
  wmape : Fl

/-- The results of the checks with what their messages use.  The values of the enumerations are in
`meridian/analysis/review/results.py:124-830`. -/
inductive Res where
  | convergence (c : Rhat.Case) (threshold : Text) (parameter : String) (rhat : Fl)
  | baseline (s : Status) (prob : Fl)
  | ppp (s : Status) (p : Fl)
  | gof (s : Status) (all : Fit) (split : Option (Fit × Fit))
  | pps (s : Status) (channels : List (String × Bool)) (noShift : List String)
  | roi (s : Status) (channels : List (String × RoiCase)) (undefined : List Text)
      (infinite low high : List String)
  | implausible (s : Status) (high low : List String)
  | highVariance (s : Status) (names : List String)
  | bias (s : Status) (controls : Bool) (names : List String)

/-- `result.case.status`. -/
def Res.status : Res → Status
  | .convergence c .. => convergenceStatus c
  | .baseline s _ => s
  | .ppp s _ => s
  | .gof s .. => s
  | .pps s .. => s
  | .roi s .. => s
  | .implausible s .. => s
  | .highVariance s _ => s
  | .bias s .. => s

/-- The class of a result. -/
def Res.id : Res → CheckId
  | .convergence .. => .convergence
  | .baseline .. => .baseline
  | .ppp .. => .ppp
  | .gof .. => .gof
  | .pps .. => .pps
  | .roi .. => .roi
  | .implausible .. => .implausible
  | .highVariance .. => .highVariance
  | .bias .. => .potentialBias

/-- `result.__class__.__name__`. -/
def className : CheckId → String
  | .convergence => "ConvergenceCheckResult"
  | .baseline => "BaselineCheckResult"
  | .gof => "GoodnessOfFitCheckResult"
  | .ppp => "BayesianPPPCheckResult"
  | .pps => "PriorPosteriorShiftCheckResult"
  | .roi => "ROIConsistencyCheckResult"
  | .implausible => "ImplausibleROICheckResult"
  | .highVariance => "HighVarianceCheckResult"
  | .potentialBias => "PotentialBiasCheckResult"

/-- `_get_check_name`, `meridian/analysis/review/results.py:1034-1041`, with `CHECK_RESULT_NAME_MAP`,
`meridian/analysis/review/constants.py:60-70`. -/
def checkName : CheckId → String
  | .convergence => "Convergence"
  | .baseline => "Baseline"
  | .gof => "Goodness of fit"
  | .ppp => "Bayesian p-value"
  | .pps => "Prior-posterior shift"
  | .roi => "ROI consistency"
  | .implausible => "Implausible ROI"
  | .highVariance => "High-variance ROI"
  | .potentialBias => "Potential bias"

/-- The advice of a case, shortened to its first words: `meridian/analysis/review/results.py:111-120, 185-201,
268-277, 324-334, 446-449, 530-533` and `meridian/analysis/review/constants.py:82-98`. -/
def advice : Res → Option Text
  | .convergence .converged .. => none
  | .convergence .notFullyConverged .. => some (lit "Manually inspect the parameters with high R-hat values")
  | .convergence .notConverged .. => some (lit "We recommend increasing MCMC iterations")
  | .baseline .pass _ => some (lit "We recommend visually inspecting the baseline time series")
  | .baseline .review _ => some (lit "This indicates that the baseline time series occasionally dips")
  | .baseline .fail _ => some (lit "This high probability points to a statistical error")
  | .ppp .pass _ => some (lit "The observed total outcome is consistent")
  | .ppp _ _ => some (lit "The observed total outcome is an extreme outlier")
  | .gof .pass .. => some (lit "These goodness-of-fit metrics are intended for guidance")
  | .gof .. => some (lit "A negative R-squared signals a potential conflict")
  | .pps .pass .. => none
  | .pps .. => some (lit "Please review these channels to see if this is expected")
  | .roi .pass .. => none
  | .roi .. => some (lit "Please review this result")
  | .implausible .pass .. => none
  | .implausible .. => some (lit "Please review these channels")
  | .highVariance .pass _ => none
  | .highVariance .. => some (lit "We recommend calibrating these channels")
  | .bias .pass .. => none
  | .bias .. => some (lit "Some channels have low correlation with all controls.")

/-- One set of numbers, `meridian/analysis/review/results.py:343-348`. -/
def fitText (f : Fit) : Text :=
  (lit "R-squared = ") ++ flText 4 f.rsq ++ (lit ", MAPE = ") ++ flText 4 f.mape ++ (lit ", and wMAPE = ") ++
    flText 4 f.wmape

/-- One number for all, training and held-out data, `meridian/analysis/review/results.py:428-436`. -/
def threeText (a b c : Fl) : Text :=
  flText 4 a ++ (lit " (All), ") ++ flText 4 b ++ (lit " (Train), ") ++ flText 4 c ++ (lit " (Test)")

/-- `_format_roi_channels_msg`, `meridian/analysis/review/checks.py:412-419`. -/
def roiNames (direction : Text) (l : List String) : Text :=
  if l.isEmpty then []
  else (lit "an unusually ") ++ direction ++ (lit " ROI estimate (for channel") ++
    (if l.length > 1 then (lit "s") else []) ++ (lit " ") ++ nameList l ++ (lit ")")

/-- The message on priors without quantiles, `meridian/analysis/review/checks.py:614-622`. -/
def undefinedMsg (l : List Text) : Text :=
  if l.isEmpty then []
  else (lit "The quantile method is not defined for the following parameters: [") ++ joinWith (lit ", ") l ++
    (lit "]. The ROI Consistency check cannot be performed for these parameters.")

/-- The message on infinite quantiles, `meridian/analysis/review/checks.py:624-631`. -/
def infiniteMsg (l : List String) : Text :=
  if l.isEmpty then []
  else (lit "Prior ROI quantiles are infinite for channels: ") ++ joinWith (lit ", ") (l.map String.toList)

/-- The message on low and high estimates, `meridian/analysis/review/checks.py:634-647`. -/
def lowHighMsg (low high : List String) : Text :=
  if low.isEmpty && high.isEmpty then []
  else (lit "We've detected ") ++
    joinWith (lit " and ") ([roiNames (lit "low") low, roiNames (lit "high") high].filter (!·.isEmpty)) ++
    (lit " where the posterior point estimate falls into the extreme tail of your custom prior.")

/-- The message on implausible estimates, `meridian/analysis/review/checks.py:1016-1033`. -/
def implausibleMsg (high low : List String) : Text :=
  if high.isEmpty && low.isEmpty then []
  else (lit "We've detected implausibly ") ++
    joinWith (lit " and ") (
      (if high.isEmpty then [] else
        [(lit "high ROI estimates (for channel(s) ") ++ nameList high ++ (lit ")")]) ++
      if low.isEmpty then [] else
        [(lit "low ROI estimates (for channel(s) ") ++ nameList low ++ (lit ")")]) ++ (lit ".")

/-- `message_template.format(**details)`, `meridian/analysis/review/results.py:124-830`. -/
def message : Res → Text
  | .convergence .converged thr _ _ =>
    (lit "The model has likely converged, as all parameters have R-hat values < ") ++ thr ++ (lit ".")
  | .convergence .notFullyConverged _ p r =>
    (lit "The model hasn't fully converged, and the `max_r_hat` for parameter ") ++ quoted p ++ (lit " is ") ++
      flText 2 r ++ (lit ".")
  | .convergence .notConverged _ p r =>
    (lit "The model hasn't converged, and the `max_r_hat` for parameter ") ++ quoted p ++ (lit " is ") ++
      flText 2 r ++ (lit ".")
  | .baseline _ p => (lit "The posterior probability that the baseline is negative is ") ++ flText 2 p ++ (lit ".")
  | .ppp _ p => (lit "The Bayesian posterior predictive p-value is ") ++ flText 2 p ++ (lit ".")
  | .gof _ a none => fitText a
  | .gof _ a (some (b, c)) =>
    (lit "R-squared = ") ++ threeText a.rsq b.rsq c.rsq ++ (lit "; MAPE = ") ++ threeText a.mape b.mape c.mape ++
      (lit "; wMAPE = ") ++ threeText a.wmape b.wmape c.wmape
  | .pps .pass _ _ => (lit "The model has successfully learned from the data. This is a positive sign that your data was informative.")
  | .pps _ _ names => (lit "We've detected channel(s) ") ++ nameList names ++
      (lit " where the posterior distribution did not significantly shift from the prior. This suggests the data signal for these channels was not strong enough to update the model's beliefs.")
  | .roi .pass .. => (lit "The posterior distribution of the ROI is within a reasonable range, aligning with the custom priors you provided.")
  | .roi _ _ u i l h => undefinedMsg u ++ infiniteMsg i ++ lowHighMsg l h
  | .implausible .pass .. => (lit "All channels have plausible ROI estimates.")
  | .implausible _ h l => implausibleMsg h l
  | .highVariance .pass _ => (lit "All channels have acceptable ROI variance.")
  | .highVariance _ names => (lit "We've detected channel(s) ") ++ nameList names ++
      (lit " with highly uncertain ROI estimates (wide posterior intervals).")
  | .bias .pass .. => (lit "All channels have sufficient correlation with control variables.")
  | .bias _ false _ => (lit "No control variables are included in the model. Consider adding control variables to control for potential confounding bias.")
  | .bias _ true names => (lit "We've detected channel(s) ") ++ nameList names ++
      (lit " with very low correlation with all included control variables.")

/-- Whether the advice is set off with a full stop, `meridian/analysis/review/results.py:440`. -/
def stop : Res → Text
  | .gof .. => (lit ".")
  | _ => []

/-- `recommendation`, `meridian/analysis/review/results.py:99-105` and 424-440. -/
def recommendation (r : Res) : Text :=
  match advice r with
  | none => message r
  | some a => message r ++ stop r ++ (lit " ") ++ a

/-- `status.name`. -/
def statusName : Status → String
  | .pass => "PASS"
  | .review => "REVIEW"
  | .fail => "FAIL"

/-- `status|title` of jinja. -/
def statusTitle : Status → String
  | .pass => "Pass"
  | .review => "Review"
  | .fail => "Fail"

/-- `status|lower` of jinja. -/
def statusLower : Status → String
  | .pass => "pass"
  | .review => "review"
  | .fail => "fail"

/-! ### The printed review -/

/-- `name[: -len("CheckResult")]`, `meridian/analysis/review/results.py:936-940`. -/
def printTitle (name : String) : Text :=
  if (lit "CheckResult").isSuffixOf name.toList then name.toList.take (name.toList.length - (lit "CheckResult").length)
  else name.toList

/-- The four lines of a check, `meridian/analysis/review/results.py:942-945`. -/
def block (r : Res) : List Text :=
  [List.replicate 40 '-', printTitle (className r.id) ++ (lit " Check:"),
    (lit "  Status: ") ++ (statusName r.status).toList, (lit "  Recommendation: ") ++ recommendation r]

/-- A review: the overall status, the message, the results and the score (`none` is NaN). -/
structure Summary where
  overall : Status
  message : Text
  results : List Res
  score : Fl

/-- `ReviewSummary.__repr__`, `meridian/analysis/review/results.py:925-947`: the lines. -/
def printed (s : Summary) : List Text :=
  [List.replicate 40 '=', (lit "Model Quality Checks"), List.replicate 40 '=',
    (lit "Overall Status: ") ++ (statusName s.overall).toList, (lit "Summary: ") ++ s.message,
    (lit "Health Score: ") ++ flText 1 s.score, (lit "\nCheck Results:")] ++ s.results.flatMap block

/-- `checks_status`, `meridian/analysis/review/results.py:954-960`: the value of a key is the last one. -/
def checksStatus (l : List Res) (name : String) : Option String :=
  (l.reverse.find? fun r => className r.id == name).map fun r => statusName r.status

/-- The overall status and the message of a review that was not stopped,
`meridian/analysis/review/reviewer.py:389-416`. -/
def verdict (l : List Res) : Status × Text :=
  let failures := l.any fun r => r.status == .fail
  let reviews := l.any fun r => r.status == .review
  if failures && reviews then
    (.fail, (lit "Failed: Quality issues were detected in your model. Follow recommendations to address any failed checks and review results to determine if further action is needed."))
  else if failures then
    (.fail, (lit "Failed: Quality issues were detected in your model. Address failed checks before proceeding."))
  else if reviews then (.pass, (lit "Passed with reviews: Review is needed."))
  else (.pass, (lit "Passed: No major quality issues were identified."))

/-! ### The health card -/

/-- Whether a result is shown with its channels, `meridian/analysis/review/results.py:993-999`. -/
def byChannel : Res → Bool
  | .pps .. => true
  | .roi .. => true
  | _ => false

/-- The passed and all channels, `meridian/analysis/review/results.py:1024-1030`. -/
def counts : Res → ℕ × ℕ
  | .pps _ l _ => (l.countP (·.2), l.length)
  | .roi _ l .. => (l.countP fun p => p.2 == .pass, l.length)
  | _ => (0, 0)

/-- A row of the table: name, class and text of the chip, the counts and the recommended action. -/
structure Row where
  name : String
  chipClass : String
  chip : String
  channels : Option (ℕ × ℕ)
  action : Text

/-- The row of a result, `meridian/templates/model_health_summary_card.html.jinja:65-87`, with
`_get_check_data`, `meridian/analysis/review/results.py:1016-1032`. -/
def row (r : Res) : Row :=
  if byChannel r then
    { name := checkName r.id
      chipClass := if r.status = .pass then "pass" else "review"
      chip := if r.status = .pass then "Pass" else "Review"
      channels := some (counts r)
      action := recommendation r }
  else
    { name := checkName r.id, chipClass := statusLower r.status, chip := statusTitle r.status, channels := none
      action := recommendation r }

/-- The rows of the table, `_create_health_card_html`, `meridian/analysis/review/results.py:986-1014`, and
`meridian/templates/model_health_summary_card.html.jinja:65-87`. -/
def rows (l : List Res) : List Row := (l.filter (!byChannel ·)).map row ++ (l.filter byChannel).map row

/-! ### The page -/

/-- `jinja2.select_autoescape()`: whether the values in a template are escaped.
`meridian/templates/formatter.py:233-238`. -/
def autoescape (template : String) : Bool :=
  [(lit ".html"), (lit ".htm"), (lit ".xml")].any fun e => e.isSuffixOf (template.toList.map Char.toLower)

/-- A character of an escaped value (`markupsafe.escape`). -/
def escapeChar : Char → Text
  | '&' => (lit "&amp;")
  | '<' => (lit "&lt;")
  | '>' => (lit "&gt;")
  | '\'' => (lit "&#39;")
  | '"' => (lit "&#34;")
  | c => [c]

/-- A value in a template: `{{ value }}`. -/
def put (template : String) (v : Text) : Text := if autoescape template then v.flatMap escapeChar else v

/-- The template of the card. -/
def cardTemplate : String := "model_health_summary_card.html.jinja"

/-- The template of the page. -/
def pageTemplate : String := "summary.html.jinja"

/-- The counts of a row, `meridian/templates/model_health_summary_card.html.jinja:82`. -/
def countHtml : Option (ℕ × ℕ) → Text
  | none => []
  | some (p, n) => (lit "<div class=\"stats-text\">") ++ (Nat.repr p).toList ++ (lit "/") ++ (Nat.repr n).toList ++
      (lit " channels passed</div>")

/-- A row in the card, `meridian/templates/model_health_summary_card.html.jinja:65-87`. -/
def rowHtml (r : Row) : Text :=
  (lit "<tr><td>") ++ put cardTemplate r.name.toList ++ (lit "</td><td><chip class=\"") ++ r.chipClass.toList ++
    (lit "\">") ++ r.chip.toList ++ (lit "</chip>") ++
    countHtml r.channels ++
    (lit "</td><td>") ++ put cardTemplate r.action ++ (lit "</td></tr>")

/-- The banner, `meridian/templates/model_health_summary_card.html.jinja:42-52`. -/
def banner (s : Summary) : Text :=
  (lit "<div class=\"status-banner-strip ") ++ (if s.overall = .fail then (lit "fail") else (lit "info")) ++
    (lit "\"><span>") ++ put cardTemplate s.message ++ (lit "</span></div>")

/-- The card, `meridian/templates/model_health_summary_card.html.jinja:17-117`. -/
def cardHtml (s : Summary) : Text :=
  (lit "<card class=\"model-health-card\"><div class=\"score-value\">") ++ flText 1 s.score ++ (lit "</div>") ++
    banner s ++ (lit "<tbody>") ++ ((rows s.results).map rowHtml).flatten ++ (lit "</tbody></card>")

/-- `_gen_model_health_card`, `meridian/analysis/review/results.py:977-984`, with the page
`meridian/templates/summary.html.jinja:51-58`. -/
def pageHtml (s : Summary) : Text :=
  (lit "<body><cards>") ++ put pageTemplate (cardHtml s) ++ (lit "</cards></body>")

/-! ### The selected geos at the top of a page -/

/-- The chip of the selected geos, `meridian/templates/chips.html.jinja:21-32`: the list that appears when
pointing at it, and its text. -/
def geoChip (geos : List String) : Option (Text × Text) :=
  if geos.isEmpty then none
  else
    let full := joinWith (lit ", ") (geos.map String.toList)
    some (full,
      if geos.length > 5 then
        joinWith (lit ", ") ((geos.take 5).map String.toList) ++ (lit ", + ") ++
          (Nat.repr (geos.length - 5)).toList ++ (lit " more")
      else full)

/-- The chip in the page. -/
def chipHtml (geos : List String) : Text :=
  match geoChip geos with
  | none => []
  | some (full, text) => (lit "<chip title=\"Selected: ") ++ put "chips.html.jinja" full ++ (lit "\">Selected geos: ") ++
      put "chips.html.jinja" text ++ (lit "</chip>")

/-! ### From the checks to the results -/

/-- The result of the prior-posterior shift, `meridian/analysis/review/checks.py:888-910`. -/
def shiftRes (c : ChannelConfig) (l : List (String × Bool)) : Res := .pps (shiftStatus c l) l (noShift l)

/-- The result of the ROI consistency, `_compute_aggregate_result`,
`meridian/analysis/review/checks.py:605-670`; `param` is the text of the prior of a group. -/
def roiRes (param : Group → Text) (c : ChannelConfig) (gs : List Group) : Res :=
  .roi (roiStatus c gs) (roiChannels gs) ((gs.filter (·.quantiles.isNone)).map param)
    (infNames (gs.flatMap Group.entries)) (lowNames (gs.flatMap Group.entries))
    (highNames (gs.flatMap Group.entries))

end Verif.HealthCard
