import Verif.Model.Metrics

/-!
# Response curves and optimal frequency

`Analyzer.response_curves` and `Analyzer.optimal_freq`, `meridian/analysis/analyzer.py`.
-/

namespace Verif.Curves

open Verif.Mmm Verif.Selection Verif.Metrics

/-- Errors. -/
inductive Err where
  | negativeFactor
  | factorOrder
  | noRfChannels
  | emptyGrid
deriving DecidableEq

open Classical in
/-- The checks of `incremental_outcome` on its scaling factors,
`meridian/analysis/analyzer.py:1356-1365`. -/
noncomputable def checkFactors (s0 s1 : ℝ) : Except Err Unit :=
  if s1 < 0 then .error .negativeFactor
  else if s0 < 0 then .error .negativeFactor
  else if s1 ≤ s0 then .error .factorOrder
  else .ok ()

/-- The entry of a fully aggregated tensor. -/
noncomputable def total (ctx : Ctx) (x : ℕ → ℕ → ℝ) (gi ti : Option (List ℕ)) : ℝ :=
  ((filterAggregate x ctx.nGeos ctx.nTimes gi ti true true).getD 0 []).getD 0 0

/-- Mean over draws (`get_central_tendency_and_ci`, `meridian/analysis/analyzer.py:68`). -/
noncomputable def mean {D : Type} (draws : List D) (f : D → ℝ) : ℝ :=
  (draws.map f).sum / draws.length

open Classical in
/-- One point of the response curve of channel `m`, mean over draws,
`meridian/analysis/analyzer.py:3698-3721`. -/
noncomputable def curvePoint (ctx : Ctx) (draws : List Params) (d : Data) (gi ti : Option (List ℕ))
    (byReach useKpiArg : Bool) (m : ℕ) (mult : ℝ) : Except Err ℝ :=
  if mult = 0 then .ok 0
  else
    match checkFactors 0 mult with
    | .error e => .error e
    | .ok () => .ok (mean draws fun p => total ctx (fun g t => incrementalOutcome ctx p d (fun _ => 0) 0
        mult (fun _ => true) byReach true useKpiArg g t m) gi ti)

/-- The points of a response curve for the multipliers, in order. -/
noncomputable def responseCurve (ctx : Ctx) (draws : List Params) (d : Data)
    (gi ti : Option (List ℕ)) (byReach useKpiArg : Bool) (m : ℕ) : List ℝ → Except Err (List ℝ)
  | [] => .ok []
  | mult :: rest =>
    match curvePoint ctx draws d gi ti byReach useKpiArg m mult with
    | .error e => .error e
    | .ok y =>
      match responseCurve ctx draws d gi ti byReach useKpiArg m rest with
      | .error e => .error e
      | .ok ys => .ok (y :: ys)

/-- The spend coordinate of the points, `meridian/analysis/analyzer.py:3723-3738`. -/
noncomputable def curveSpend (ctx : Ctx) (spend : Spend) (gi ti : Option (List ℕ)) (m : ℕ)
    (mults : List ℝ) : List ℝ :=
  let s := match spend with
    | .cells x => total ctx (fun g t => x g t m) gi ti
    | .totals x => x m
  mults.map fun k => k * s

/-- Reach and frequency expressed at given frequencies,
`_build_unscaled_data_tensors(optimal_frequency=...)`, `meridian/analysis/tensors.py:1028-1073`, and
`response_curves(use_optimal_frequency=True)`, `meridian/analysis/analyzer.py:3659-3680`.  Organic
channels are left out: `optimal_freq` does not fill them. -/
noncomputable def atFrequency (d : Data) (f : ℕ → ℝ) : Data :=
  { d with
    frequency := fun _ _ c => 1 * f c
    reach := fun g t c => d.reach g t c * d.frequency g t c / (1 * f c) }

/-- `insert_dummy_media`, `meridian/analysis/tensors.py:1075-1105`. -/
noncomputable def dummyMedia (d : Data) : Data := { d with media := fun _ _ _ => 1 }

/-- Mean ROI over draws of reach and frequency channel `c` when all channels are at the given
frequencies: `self.roi(...)[..., -n_rf_channels:]`, `meridian/analysis/analyzer.py:3087-3108`.  (The
totals of the dummy media spend do not enter.) -/
noncomputable def meanRoi (ctx : Ctx) (draws : List Params) (d : Data) (spend : T3)
    (gi ti : Option (List ℕ)) (useKpiArg : Bool) (f : ℕ → ℝ) (c : ℕ) : ℝ :=
  mean draws fun p =>
    total ctx (fun g t => incrementalOutcome ctx p (dummyMedia (atFrequency d f)) (fun _ => 0) 0 1
      (fun _ => true) true true useKpiArg g t (ctx.media.n + c)) gi ti
    / total ctx (fun g t => spend g t c) gi ti

open Classical in
/-- `np.nanargmax` of a column: the first position of the largest value that is not NaN (`none`);
`none`, an exception, if there is no value. -/
noncomputable def nanargmax : List (Option ℝ) → Option ℕ
  | [] => none
  | none :: l => (nanargmax l).map (· + 1)
  | some v :: l =>
    match nanargmax l with
    | none => some 0
    | some i => if (l.getD i none).getD 0 ≤ v then some 0 else some (i + 1)

/-- `optimal_freq`: the frequency of the grid with the largest mean ROI, for every channel,
`meridian/analysis/analyzer.py:3074-3110`.  ROI values are finite here, so no cell is NaN. -/
noncomputable def optimalFreq (ctx : Ctx) (draws : List Params) (d : Data) (spend : T3)
    (gi ti : Option (List ℕ)) (useKpiArg : Bool) (grid : List ℝ) : Except Err (List ℝ) :=
  if ctx.rf.n = 0 then .error .noRfChannels
  else
    let columns := (List.range ctx.rf.n).map fun c =>
      nanargmax (grid.map fun f => some (meanRoi ctx draws d spend gi ti useKpiArg (fun _ => f) c))
    if columns.any (·.isNone) then .error .emptyGrid
    else .ok (columns.map fun i => grid.getD (i.getD 0) 0)

end Verif.Curves
