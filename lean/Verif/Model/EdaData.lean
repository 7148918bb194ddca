import Verif.Model.Eda

/-!
# The data the exploratory checks look at

`meridian/model/eda/eda_engine.py`: cutting media to the modelled periods, aggregation over geos,
scaling, reach and frequency, and the data sets of treatments and controls.  Channels and variables
are treated one at a time: a data array is a list of named panels.  National arrays are panels with
the single geo `0`.  Casts to the floating-point type and attributes are left out; values are real
numbers.
-/

namespace Verif.EdaData

open Verif.Transformers

/-- A population of one in each geo, the default of `_scale_xarray`,
`meridian/model/eda/eda_engine.py:1358-1359`. -/
def ones : ℕ → ℝ := fun _ => 1

/-- `_truncate_media_time`, `meridian/model/eda/eda_engine.py:1332-1345`: `lead` is
`n_media_times - n_times`. -/
def truncate (lead : ℕ) (x : Panel) : Panel := fun g t => x g (lead + t)

/-- `_scale_xarray` with a `MediaTransformer`, `meridian/model/eda/eda_engine.py:1347-1376`: `none` if
the transformer raises. -/
noncomputable def scaleMedia (G T : ℕ) (pop : ℕ → ℝ) (x : Panel) : Option Panel :=
  (mediaMedian G T x pop).map fun med => mediaForward med pop x

/-- `_scale_xarray` with a `CenteringAndScalingTransformer`, the same lines: no scaling by population. -/
noncomputable def centre (G T : ℕ) (x : Panel) : Panel := csForward (csInit G T x ones none) x true

/-- The sum over geos, `meridian/model/eda/eda_engine.py:1449-1451`. -/
def sumGeos (G : ℕ) (x : Panel) : Panel := fun _ t => ((List.range G).map fun g => x g t).sum

/-- The default aggregation function, `np.sum`, `meridian/model/eda/constants.py:25`. -/
def defaultAgg : List ℝ → ℝ := List.sum

/-- `_aggregate_variables`, `meridian/model/eda/eda_engine.py:1378-1413`, one variable: the function
given for its name is applied to the values of all geos at each time. -/
def aggregate (G : ℕ) (fs : List (String × (List ℝ → ℝ))) (name : String) (x : Panel) : Panel :=
  fun _ t => ((fs.lookup name).getD defaultAgg) ((List.range G).map fun g => x g t)

/-- What is needed of the input data, the model specification and the aggregation configuration. -/
structure Raw where
  /-- `n_geos == 1`, `meridian/model/context.py:550-551`, is `G = 1` -/
  G : ℕ
  T : ℕ
  /-- periods of media before the modelled ones -/
  lead : ℕ
  population : ℕ → ℝ
  kpi : Panel
  media : List (String × Panel)
  /-- reach and frequency -/
  rf : List (String × Panel × Panel)
  organicMedia : List (String × Panel)
  organicRf : List (String × Panel × Panel)
  /-- values and the entry of `control_population_scaling_id` -/
  controls : List (String × Panel × Option Bool)
  nonMedia : List (String × Panel × Option Bool)
  aggControls : List (String × (List ℝ → ℝ))
  aggNonMedia : List (String × (List ℝ → ℝ))

/-- `_is_national_data`, `meridian/model/eda/eda_engine.py:604-606`. -/
def Raw.national (r : Raw) : Bool := decide (r.G = 1)

/-- `media_scaled_da` and `organic_media_scaled_da`, `meridian/model/eda/eda_engine.py:652-662,
741-751`: scaled by the model's own transformer, made from all media periods, then cut. -/
noncomputable def Raw.mediaScaled (r : Raw) (x : Panel) : Option Panel :=
  (scaleMedia r.G (r.lead + r.T) r.population x).map (truncate r.lead)

/-- `national_media_raw_da`, `meridian/model/eda/eda_engine.py:696-711`: for national data the
only geo. -/
def Raw.nationalSum (r : Raw) (x : Panel) : Panel := if r.national then x else sumGeos r.G x

/-- `national_media_scaled_da` and `national_organic_media_scaled_da`,
`meridian/model/eda/eda_engine.py:713-728, 768-785`. -/
noncomputable def Raw.nationalMediaScaled (r : Raw) (x : Panel) : Option Panel :=
  if r.national then r.mediaScaled x
  else scaleMedia 1 r.T ones (sumGeos r.G (truncate r.lead x))

/-- The raw impressions, `meridian/model/eda/eda_engine.py:1493-1498`. -/
def Raw.impressions (r : Raw) (reach freq : Panel) : Panel :=
  fun g t => truncate r.lead reach g t * truncate r.lead freq g t

/-- `rf_impressions_scaled_da`, `meridian/model/eda/eda_engine.py:1517-1521, 1553-1559`: scaled by
the impressions of the modelled periods. -/
noncomputable def Raw.rfScaled (r : Raw) (x : Panel × Panel) : Option Panel :=
  scaleMedia r.G r.T (if r.national then ones else r.population) (r.impressions x.1 x.2)

/-- `national_rf_impressions_scaled_da`, `meridian/model/eda/eda_engine.py:1522-1525, 1561-1566`. -/
noncomputable def Raw.nationalRfScaled (r : Raw) (x : Panel × Panel) : Option Panel :=
  if r.national then r.rfScaled x
  else scaleMedia 1 r.T ones (sumGeos r.G (r.impressions x.1 x.2))

/-- `national_reach_raw_da`, `meridian/model/eda/eda_engine.py:1503-1504, 1527-1529`. -/
def Raw.nationalReach (r : Raw) (reach : Panel) : Panel := r.nationalSum (truncate r.lead reach)

/-- `national_rf_impressions_raw_da`, `meridian/model/eda/eda_engine.py:1509-1512, 1535-1539`. -/
def Raw.nationalImpressions (r : Raw) (reach freq : Panel) : Panel :=
  r.nationalSum (r.impressions reach freq)

/-- `national_frequency_da`, `meridian/model/eda/eda_engine.py:1513-1514, 1541-1551`. -/
noncomputable def Raw.nationalFrequency (r : Raw) (reach freq : Panel) : Panel := fun g t =>
  if r.national then truncate r.lead freq g t
  else if r.nationalReach reach g t = 0 then 0
  else r.nationalImpressions reach freq g t / r.nationalReach reach g t

/-- `controls_scaled_da` and `non_media_scaled_da`, `meridian/model/eda/eda_engine.py:608-618,
787-797`, with `meridian/model/context.py:577-596, 598-616`. -/
noncomputable def Raw.variableScaled (r : Raw) (x : Panel × Option Bool) : Panel :=
  csForward (csInit r.G r.T x.1 r.population x.2) x.1 true

/-- `national_controls_scaled_da` and `national_non_media_scaled_da`,
`meridian/model/eda/eda_engine.py:620-641, 799-821`. -/
noncomputable def Raw.nationalVariableScaled (r : Raw) (fs : List (String × (List ℝ → ℝ)))
    (name : String) (x : Panel × Option Bool) : Panel :=
  if r.national then r.variableScaled x else centre 1 r.T (aggregate r.G fs name x.1)

/-- `national_kpi_scaled_da`, `meridian/model/eda/eda_engine.py:1046-1059`. -/
noncomputable def Raw.nationalKpiScaled (r : Raw) : Panel :=
  if r.national then kpiForward (kpiInit r.G r.T r.kpi r.population) r.kpi
  else centre 1 r.T (sumGeos r.G r.kpi)

/-- Each element of a list, `none` if one of them is. -/
def each {α β : Type*} (f : String → α → Option β) : List (String × α) → Option (List (String × β))
  | [] => some []
  | (n, a) :: l =>
    match f n a with
    | none => none
    | some b => (each f l).map ((n, b) :: ·)

/-- Lists joined, `none` if one of them is. -/
def join {α : Type*} : List (Option (List α)) → Option (List α)
  | [] => some []
  | none :: _ => none
  | some l :: ls => (join ls).map (l ++ ·)

/-- `treatment_control_scaled_ds`, stacked, `meridian/model/eda/eda_engine.py:1061-1079,
1112-1117`. -/
noncomputable def Raw.geoVars (r : Raw) : Option (List (String × Panel)) :=
  join [each (fun _ => r.mediaScaled) r.media, each (fun _ => r.rfScaled) r.rf,
    each (fun _ => r.mediaScaled) r.organicMedia, each (fun _ => r.rfScaled) r.organicRf,
    each (fun _ x => some (r.variableScaled x)) r.controls,
    each (fun _ x => some (r.variableScaled x)) r.nonMedia]

/-- `national_treatment_control_scaled_ds`, stacked, `meridian/model/eda/eda_engine.py:1119-1145`. -/
noncomputable def Raw.nationalVars (r : Raw) : Option (List (String × Panel)) :=
  join [each (fun _ => r.nationalMediaScaled) r.media, each (fun _ => r.nationalRfScaled) r.rf,
    each (fun _ => r.nationalMediaScaled) r.organicMedia,
    each (fun _ => r.nationalRfScaled) r.organicRf,
    each (fun n x => some (r.nationalVariableScaled r.aggControls n x)) r.controls,
    each (fun n x => some (r.nationalVariableScaled r.aggNonMedia n x)) r.nonMedia]

/-- The media transformers made with the model, `meridian/model/media.py:112-115, 199-203, 269-272,
358-362`: `true` if none of them raises. -/
noncomputable def Raw.accepted (r : Raw) : Bool :=
  (r.media ++ r.organicMedia).all (fun x =>
    (mediaMedian r.G (r.lead + r.T) x.2 r.population).isSome) &&
  (r.rf ++ r.organicRf).all (fun x =>
    (mediaMedian r.G (r.lead + r.T) x.2.1 r.population).isSome)

/-- What the critical checks see; the data sets are empty if they cannot be made. -/
noncomputable def Raw.engine (r : Raw) : Eda.Data where
  national := r.national
  G := r.G
  T := r.T
  V := (r.geoVars.getD []).length
  name v := ((r.geoVars.getD []).getD v ("", fun _ _ => 0)).1
  byGeo v g t := ((r.geoVars.getD []).getD v ("", fun _ _ => 0)).2 g t
  byTime v t := ((r.nationalVars.getD []).getD v ("", fun _ _ => 0)).2 0 t
  kpi := r.kpi
  population := r.population

/-- The checks that raise an exception: those that need a data set that cannot be made.
`check_vif` and `check_pairwise_corr` use the geo-level set, or the national one for national data,
`meridian/model/eda/eda_engine.py:1583-1585, 1704-1706, 2037, 2148`. -/
noncomputable def Raw.raises (r : Raw) : Eda.CheckType → Bool
  | .kpiInvariability => false
  | .multicollinearity | .pairwiseCorrelation =>
    if r.national then r.nationalVars.isNone else r.geoVars.isNone

/-- `_run_model_fitting_guardrail` on this data, `meridian/model/model.py:1041-1070`. -/
noncomputable def Raw.guard (r : Raw) (s : Eda.Spec) : Except (List Eda.CheckType) Unit :=
  Eda.guardrail r.engine s r.raises

end Verif.EdaData
