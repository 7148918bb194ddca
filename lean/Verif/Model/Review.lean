import Verif.Model.Rhat
import Verif.Model.Interval

/-!
# The model review

The checks and the reviewer of `meridian/analysis/review` (`configs.py`, `checks.py`, `results.py`,
`reviewer.py`), `Meridian.review` and the validation of an injected health summary
(`meridian/model/model.py:79-94, 233-275, 1176-1206`).

Quantities computed by the analyzer are inputs: R-hat values, the draws of the baseline and of the
total expected outcome, R-squared.  Arithmetic is exact; prior statistics and R-squared may be NaN
or infinite.  The selection of geos and times happens before.  The three checks that are not in the
default battery are inputs as well (`other`), except the implausible ROI check.
-/

namespace Verif.Review

open Verif.Accuracy (Fl)
open Verif.Rhat (lt gt le)
open Verif.Interval (meanFin quantileFin)

/-- `Status`, `meridian/analysis/review/results.py:37-41`. -/
inductive Status where
  | pass
  | review
  | fail
deriving DecidableEq

/-! ## Thresholds on the number of channels -/

/-- `ChannelCheckConfig`, `meridian/analysis/review/configs.py:46-67`. -/
structure ChannelConfig where
  count : Option ℤ
  ratio : Option ℚ
deriving DecidableEq

/-- `ChannelCheckConfig.__post_init__`, `meridian/analysis/review/configs.py:69-84`. -/
def ChannelConfig.valid (c : ChannelConfig) : Bool :=
  (match c.count with | some a => decide (0 ≤ a) | none => true) &&
  (match c.ratio with | some r => decide (0 ≤ r) && decide (r ≤ 1) | none => true)

/-- `is_failing_channels_within_threshold`, `meridian/analysis/review/configs.py:86-126`. -/
def ChannelConfig.within (c : ChannelConfig) (failing total : ℕ) : Bool :=
  if failing = 0 then true
  else if total = 0 then false
  else
    match c.count, c.ratio with
    | some a, some r => decide ((failing : ℤ) ≤ a) || decide ((failing : ℚ) / total ≤ r)
    | some a, none => decide ((failing : ℤ) ≤ a)
    | none, some r => decide ((failing : ℚ) / total ≤ r)
    | none, none => false

/-! ## Baseline -/

/-- `BaselineConfig`, `meridian/analysis/review/configs.py:147-163`. -/
structure BaselineConfig where
  review : ℚ
  fail : ℚ
deriving DecidableEq

/-- `np.mean` of a boolean array: the share of the entries with the property (the arrays of draws are
not empty). -/
def share {α : Type} (p : α → Bool) (l : List α) : ℚ := (l.countP p : ℚ) / l.length

/-- `negative_baseline_probability`, `meridian/analysis/analyzer.py:4716-4726`, from the draws of the
baseline summed over geos and times. -/
def negativeProb (baseline : List ℚ) : ℚ := share (fun b => decide (b < 0)) baseline

/-- `BaselineCheck.run`, `meridian/analysis/review/checks.py:185-209`. -/
def baselineStatus (c : BaselineConfig) (prob : ℚ) : Status :=
  if c.fail < prob then .fail else if c.review ≤ prob then .review else .pass

/-! ## Posterior predictive p-value -/

/-- The p-value, `meridian/analysis/review/checks.py:246-253`. -/
def pppValue (actual : ℚ) (expected : List ℚ) : ℚ :=
  share (fun e => decide (|actual - meanFin expected| ≤ |e - meanFin expected|)) expected

/-- `BayesianPPPCheck.run`, `meridian/analysis/review/checks.py:255-258`. -/
def pppStatus (thr p : ℚ) : Status := if thr ≤ p then .pass else .fail

/-! ## Goodness of fit -/

/-- R-squared of the national model fit: of all data and, with a holdout, of the training and of the
held-out data. -/
structure Rsq where
  all : Fl
  split : Option (Fl × Fl)
deriving DecidableEq

/-- The values that are compared with the threshold. -/
def Rsq.values (r : Rsq) : List Fl :=
  match r.split with
  | none => [r.all]
  | some (a, b) => [r.all, a, b]

/-- `GoodnessOfFitCheck.run`, `meridian/analysis/review/checks.py:312-406`. -/
def gofStatus (thr : Fl) (r : Rsq) : Status :=
  if r.values.any fun x => le x thr then .review else .pass

/-! ## ROI consistency -/

/-- `ROIConsistencyChannelCases`, `meridian/analysis/review/results.py:452-464`. -/
inductive RoiCase where
  | pass
  | low
  | high
  | infinite
  | undefined
deriving DecidableEq

/-- The paid channels of one kind, as found in the posterior: their names, whether their prior is a
prior on ROI (only then is there an ROI variable in the posterior), whether this prior differs from
the default one, its two quantiles for each channel (`none` if the distribution does not implement
quantiles), the draws of the ROI of each channel, and the statistics of the prior for each channel
(`none` where not implemented). -/
structure Group where
  names : List String
  roiPrior : Bool
  custom : Bool
  quantiles : Option (List Fl × List Fl)
  draws : List (List ℚ)
  priorMean : Option (List Fl)
  priorMedian : Option (List Fl)
  priorQ1 : Option (List Fl)
  priorQ3 : Option (List Fl)

/-- One channel with defined quantiles: name, lower and upper prior quantile, posterior mean. -/
structure Entry where
  name : String
  lo : Fl
  hi : Fl
  mean : Fl
deriving DecidableEq

/-- `np.isinf`. -/
def isInf : Fl → Bool
  | .pinf => true
  | .ninf => true
  | _ => false

/-- The channels of a group with defined quantiles, `meridian/analysis/review/checks.py:514-533`. -/
def Group.entries (g : Group) : List Entry :=
  match g.quantiles with
  | none => []
  | some (lo, hi) => (List.range g.names.length).map fun i =>
      ⟨g.names.getD i "", lo.getD i .nan, hi.getD i .nan, .fin (meanFin (g.draws.getD i []))⟩

/-- `quantile_not_defined_channels`, `meridian/analysis/review/checks.py:531-533`. -/
def Group.undefinedNames (g : Group) : List String :=
  match g.quantiles with
  | none => g.names
  | some _ => []

/-- `inf_channels`, `low_roi_channels` and `high_roi_channels`: names,
`meridian/analysis/review/checks.py:437-438, 549-555`. -/
def infNames (l : List Entry) : List String := (l.filter fun e => isInf e.lo || isInf e.hi).map (·.name)

/-- See `infNames`. -/
def lowNames (l : List Entry) : List String := (l.filter fun e => lt e.mean e.lo).map (·.name)

/-- See `infNames`. -/
def highNames (l : List Entry) : List String := (l.filter fun e => gt e.mean e.hi).map (·.name)

/-- `_compute_channel_results`, `meridian/analysis/review/checks.py:567-602`. -/
def roiChannels (gs : List Group) : List (String × RoiCase) :=
  ((gs.flatMap Group.undefinedNames).map fun n => (n, .undefined)) ++
  (gs.flatMap Group.entries).map fun e =>
    (e.name,
      if e.name ∈ infNames (gs.flatMap Group.entries) then .infinite
      else if e.name ∈ lowNames (gs.flatMap Group.entries) then .low
      else if e.name ∈ highNames (gs.flatMap Group.entries) then .high
      else .pass)

/-- The aggregate status, `meridian/analysis/review/checks.py:605-670`. The first condition is on
`quantile_not_defined_parameters`: one for each group without quantiles. -/
def roiStatus (c : ChannelConfig) (gs : List Group) : Status :=
  if (gs.any fun g => g.quantiles.isNone) || (infNames (gs.flatMap Group.entries)) ≠ [] then .review
  else if (lowNames (gs.flatMap Group.entries)) ≠ [] ∨ (highNames (gs.flatMap Group.entries)) ≠ [] then
    if c.within ((lowNames (gs.flatMap Group.entries)).length +
        (highNames (gs.flatMap Group.entries)).length) (gs.flatMap Group.entries).length
    then .pass else .review
  else .pass

/-! ## Prior-posterior shift -/

/-- A bootstrap sample of the draws of a channel: the draws at the given positions
(`_bootstrap`, `meridian/analysis/review/checks.py:747-754`). -/
def resample (idx : List ℕ) (x : List ℚ) : List ℚ := idx.map fun i => x.getD i 0

/-- `_get_shifted_mask` for one channel, `meridian/analysis/review/checks.py:791-798`. An empty mean
is NaN and not smaller than anything. -/
def shifted (alpha : ℚ) (post : List ℚ) (prior : Fl) : Bool :=
  !post.isEmpty && (decide (share (fun x => gt (.fin x) prior) post < alpha) ||
    decide (share (fun x => lt (.fin x) prior) post < alpha))

/-- A statistic of all the bootstrap samples of a channel against the prior. -/
def statShift (alpha : ℚ) (boots : List (List ℕ)) (x : List ℚ) (stat : List ℚ → ℚ)
    (prior : Option (List Fl)) (i : ℕ) : Bool :=
  match prior with
  | none => false
  | some l => shifted alpha (boots.map fun idx => stat (resample idx x)) (l.getD i .nan)

/-- `any_shift` for channel `i`, `meridian/analysis/review/checks.py:838-869`; the statistics are
computed at lines 757-788. -/
def Group.anyShift (g : Group) (alpha : ℚ) (boots : List (List ℕ)) (i : ℕ) : Bool :=
  statShift alpha boots (g.draws.getD i []) meanFin g.priorMean i ||
  statShift alpha boots (g.draws.getD i []) (quantileFin · (1 / 2)) g.priorMedian i ||
  statShift alpha boots (g.draws.getD i []) (quantileFin · (1 / 4)) g.priorQ1 i ||
  statShift alpha boots (g.draws.getD i []) (quantileFin · (3 / 4)) g.priorQ3 i

/-- `_run_for_channel_type`, `meridian/analysis/review/checks.py:815-886`: each channel with whether
it shifted. -/
def Group.shifts (g : Group) (alpha : ℚ) (boots : List (List ℕ)) : List (String × Bool) :=
  (List.range g.names.length).map fun i => (g.names.getD i "", g.anyShift alpha boots i)

/-- The channels that did not shift. -/
def noShift (l : List (String × Bool)) : List String := (l.filter fun p => !p.2).map Prod.fst

/-- `_aggregate`, `meridian/analysis/review/checks.py:888-910`. -/
def shiftStatus (c : ChannelConfig) (l : List (String × Bool)) : Status :=
  if c.within (noShift l).length l.length then .pass else .review

/-! ## Implausible ROI -/

/-- `ImplausibleROIChannelCases`, `meridian/analysis/review/results.py:613-624`. -/
inductive PlausCase where
  | pass
  | high
  | low
deriving DecidableEq

/-- `_calculate_spend_share`, `meridian/analysis/review/checks.py:922-944`, on the spend of each
channel (non-negative numbers). -/
def spendShare (spend : List ℚ) : List ℚ :=
  if 0 < spend.sum then spend.map (· / spend.sum) else spend.map fun _ => 0

/-- One channel of `ImplausibleROICheck.run`, `meridian/analysis/review/checks.py:982-1004`. Without
spend the second number is NaN, and the comparison false. -/
def plausCase (upper lower mean sh : ℚ) : PlausCase :=
  if upper < mean * sh then .high
  else if sh ≠ 0 ∧ mean / sh < lower then .low
  else .pass

/-! ## The reviewer -/

/-- The classes of checks. -/
inductive CheckId where
  | convergence
  | baseline
  | ppp
  | gof
  | pps
  | roi
  | implausible
  | highVariance
  | potentialBias
deriving DecidableEq

/-- A post-convergence check with its configuration. -/
inductive Check where
  | baseline (c : BaselineConfig)
  | ppp (thr : ℚ)
  | gof (thr : Fl)
  | pps (c : ChannelConfig) (alpha : ℚ) (seed : ℕ)
  | roi (c : ChannelConfig)
  | other (id : CheckId)

/-- The class of a check. -/
def Check.id : Check → CheckId
  | .baseline _ => .baseline
  | .ppp _ => .ppp
  | .gof _ => .gof
  | .pps .. => .pps
  | .roi _ => .roi
  | .other i => i

/-- The results of the checks. -/
inductive Result where
  | convergence (r : Verif.Rhat.Result)
  | baseline (s : Status) (c : BaselineConfig) (prob : ℚ)
  | ppp (s : Status) (thr p : ℚ)
  | gof (s : Status) (r : Rsq)
  | pps (s : Status) (channels : List (String × Bool)) (noShift : List String)
  | roi (s : Status) (channels : List (String × RoiCase))
  | other (id : CheckId) (s : Status)
deriving DecidableEq

/-- The class of a result. -/
def Result.id : Result → CheckId
  | .convergence _ => .convergence
  | .baseline .. => .baseline
  | .ppp .. => .ppp
  | .gof .. => .gof
  | .pps .. => .pps
  | .roi .. => .roi
  | .other i _ => i

/-- `ConvergenceCases` with their status, `meridian/analysis/review/results.py:124-152`. -/
def convergenceStatus : Verif.Rhat.Case → Status
  | .converged => .pass
  | .notFullyConverged => .fail
  | .notConverged => .fail

/-- `result.case.status`. -/
def Result.status : Result → Status
  | .convergence r => convergenceStatus r.case
  | .baseline s .. => s
  | .ppp s .. => s
  | .gof s _ => s
  | .pps s .. => s
  | .roi s _ => s
  | .other _ s => s

/-- What the analyzer and the data say about the fitted model.  `media` and `rf` are `none` if there
are no such channels; `boots seed` are the positions drawn for the media and then for the RF channels
after seeding the generator. -/
structure World where
  rhat : List (String × Verif.Rhat.Tensor)
  baseline : List ℚ
  actual : ℚ
  expected : List ℚ
  rsq : Rsq
  media : Option Group
  rf : Option Group
  boots : ℕ → List (List ℕ) × List (List ℕ)
  other : CheckId → Status

/-- Errors. -/
inductive Err where
  | missingVariable
  | missingChecks
deriving DecidableEq

/-- `_uses_roi_priors`, `meridian/analysis/review/checks.py:102-113`. -/
def World.usesRoi (w : World) : Bool :=
  (match w.media with | some g => g.roiPrior | none => false) ||
  (match w.rf with | some g => g.roiPrior | none => false)

/-- `_has_custom_roi_priors`, `meridian/analysis/review/checks.py:681-704`. -/
def World.customRoi (w : World) : Bool :=
  (match w.media with | some g => g.roiPrior && g.custom | none => false) ||
  (match w.rf with | some g => g.roiPrior && g.custom | none => false)

/-- `is_relevant`, `meridian/analysis/review/checks.py:87-95, 115-124, 706-717`; the potential-bias
check is always relevant. -/
def World.relevant (w : World) : CheckId → Bool
  | .pps => w.usesRoi
  | .roi => w.usesRoi && w.customRoi
  | .implausible => w.usesRoi
  | .highVariance => w.usesRoi
  | _ => true

/-- The groups found in the posterior. -/
def World.groups (w : World) : List Group := w.media.toList ++ w.rf.toList

/-- Reading the ROI variable of every group in the posterior: an error if there is none. -/
def World.roiVariables (w : World) : Except Err Unit :=
  if w.groups.all (·.roiPrior) then .ok () else .error .missingVariable

/-- Running a post-convergence check. -/
def World.runCheck (w : World) : Check → Except Err Result
  | .baseline c => .ok (.baseline (baselineStatus c (negativeProb w.baseline)) c
      (negativeProb w.baseline))
  | .ppp thr => .ok (.ppp (pppStatus thr (pppValue w.actual w.expected)) thr
      (pppValue w.actual w.expected))
  | .gof thr => .ok (.gof (gofStatus thr w.rsq) w.rsq)
  | .pps c alpha seed =>
    match w.roiVariables with
    | .error e => .error e
    | .ok () =>
      let l := (w.media.toList.flatMap fun g => g.shifts alpha (w.boots seed).1) ++
        w.rf.toList.flatMap fun g => g.shifts alpha (w.boots seed).2
      .ok (.pps (shiftStatus c l) l (noShift l))
  | .roi c =>
    match w.roiVariables with
    | .error e => .error e
    | .ok () => .ok (.roi (roiStatus c w.groups) (roiChannels w.groups))
  | .other .implausible =>
    match w.roiVariables with
    | .error e => .error e
    | .ok () => .ok (.other .implausible (w.other .implausible))
  | .other .highVariance =>
    match w.roiVariables with
    | .error e => .error e
    | .ok () => .ok (.other .highVariance (w.other .highVariance))
  | .other i => .ok (.other i (w.other i))

/-- Running the relevant checks of a battery in order, `meridian/analysis/review/reviewer.py:379-387`.
-/
def World.runAll (w : World) : List Check → Except Err (List Result)
  | [] => .ok []
  | c :: l =>
    if w.relevant c.id then
      match w.runCheck c with
      | .error e => .error e
      | .ok r =>
        match w.runAll l with
        | .error e => .error e
        | .ok rs => .ok (r :: rs)
    else w.runAll l

/-- `ReviewSummary` without messages and score (see `Verif.Model.Health`). -/
structure Summary where
  overall : Status
  results : List Result
deriving DecidableEq

/-- The overall status, `meridian/analysis/review/reviewer.py:389-416`. -/
def overall (l : List Result) : Status :=
  if l.any fun r => r.status == .fail then .fail else .pass

/-- The checks that the health score needs, `meridian/analysis/review/reviewer.py:164-200, 335-344`.
-/
def required : List CheckId := [.baseline, .ppp, .gof]

/-- `ModelReviewer.run`, `meridian/analysis/review/reviewer.py:351-423`. -/
def World.run (w : World) (conv : Verif.Rhat.Config) (battery : List Check) : Except Err Summary :=
  let c := Verif.Rhat.check conv w.rhat
  if c.case = .notConverged then .ok ⟨.fail, [.convergence c]⟩
  else
    match w.runAll battery with
    | .error e => .error e
    | .ok rs =>
      if required.all fun i => (rs.map Result.id).contains i then
        .ok ⟨overall (.convergence c :: rs), .convergence c :: rs⟩
      else .error .missingChecks

/-- The default battery, `meridian/analysis/review/reviewer.py:40-46` with the defaults of
`configs.py`. -/
def defaultBattery : List Check :=
  [.baseline ⟨1 / 5, 4 / 5⟩, .ppp (1 / 20), .gof (.fin 0), .pps ⟨none, none⟩ (1 / 20) 42,
    .roi ⟨none, none⟩]

/-- The default thresholds of the convergence check, `meridian/analysis/review/configs.py:42-44`. -/
def defaultConvergence : Verif.Rhat.Config := ⟨.fin (6 / 5), .fin 10⟩

/-! ## Injected health summaries -/

/-- Whether the set of classes is the given one. -/
def sameSet (a b : List CheckId) : Bool := a.all (b.contains ·) && b.all (a.contains ·)

/-- `MODEL_LEVEL_SET`, `meridian/analysis/review/results.py:889-894`. -/
def modelLevel : List CheckId := [.convergence, .baseline, .gof, .ppp]

/-- `_is_valid_results_subset`, `meridian/model/model.py:79-94`. -/
def validSubset (rs : List Result) : Bool :=
  if sameSet (rs.map Result.id) [.convergence] then
    rs.any fun r => match r with | .convergence c => c.case == .notConverged | _ => false
  else sameSet (rs.map Result.id) modelLevel || sameSet (rs.map Result.id) (modelLevel ++ [.pps]) ||
    sameSet (rs.map Result.id) (modelLevel ++ [.pps, .roi])

/-- `_validate_check_result_shape`, `meridian/model/model.py:258-273`. -/
def shapeOk (nChannels : ℕ) : Result → Bool
  | .pps _ l _ => decide (l.length = nChannels)
  | .roi _ l => decide (l.length = nChannels)
  | _ => true

/-- `_validate_injected_health_summary`, `meridian/model/model.py:233-256`. -/
def injectable (nChannels : ℕ) (s : Summary) : Bool :=
  decide (s.results.map Result.id).Nodup && s.results.all (shapeOk nChannels) &&
    validSubset s.results

end Verif.Review
