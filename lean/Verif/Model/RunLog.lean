import Mathlib.Data.List.Basic
import Mathlib.Data.List.Nodup

/-!
# Model of automatic logging of model runs

`meridian/mlflow/autolog.py`.  A run of the tracking service is the list of parameters logged to it, in order.
The service is modelled by the function that logs one parameter; it may refuse any parameter for any reason.
MLflow's own rule, that a parameter once logged cannot be given another value, is `mlflow`.  Values are the text
that is logged for them (`str` of the value).  `safe_patch` is MLflow's: an exception of the patch that is not one
of the patched function is swallowed, and the patched function is called if it has not been yet.  Whether
logging is disabled or silent is handled by MLflow's decorator and not modelled.
-/

namespace Verif.RunLog

/-- An array of flags; the arrays of a model specification are flags of one or two dimensions,
`meridian/model/spec.py:241-242, 249-251`. -/
inductive Flags where
  | vec (l : List Bool)
  | mat (l : List (List Bool))
  deriving DecidableEq

/-- `json.dumps` of one flag. -/
def dumpFlag (b : Bool) : List Char := if b then "true".toList else "false".toList

/-- The items of a JSON list, separated by a comma and a space. -/
def sepItems : List (List Char) → List Char
  | [] => []
  | [x] => x
  | x :: y :: r => x ++ ", ".toList ++ sepItems (y :: r)

/-- A JSON list. -/
def dumpList (items : List (List Char)) : List Char := '[' :: (sepItems items ++ [']'])

/-- `json.dumps(field_value.tolist())`, `meridian/mlflow/autolog.py:113-114`. -/
def dump : Flags → List Char
  | .vec l => dumpList (l.map dumpFlag)
  | .mat l => dumpList (l.map fun r => dumpList (r.map dumpFlag))

/-- A value of a model specification or of its priors: an array, or any other value with the text logged for it
(for a distribution `str(field_value)`, line 126-127). -/
inductive Value where
  | array (a : Flags)
  | other (s : String)

/-- What is logged for a value, lines 112-116 and 125-132. -/
def Value.logged : Value → String
  | .array a => String.ofList (dump a)
  | .other s => s

/-- The parameters of a run, in the order they were logged. -/
abbrev Run := List (String × String)

/-- The tracking service: `mlflow.log_param`. -/
abbrev Service := Run → String → String → Option Run

/-- MLflow's rule: a parameter has one value. -/
def mlflow : Service := fun r k v =>
  match r.lookup k with
  | none => some (r ++ [(k, v)])
  | some v' => if v' = v then some r else none

/-- `dataclasses.fields(ModelSpec)`, `meridian/model/spec.py:232-258`. -/
def specFields : List String :=
  ["prior", "media_effects_dist", "hill_before_adstock", "max_lag", "unique_sigma_for_each_geo",
   "media_prior_type", "rf_prior_type", "paid_media_prior_type", "roi_calibration_period",
   "rf_roi_calibration_period", "organic_media_prior_type", "organic_rf_prior_type",
   "non_media_treatments_prior_type", "non_media_baseline_values", "knots", "baseline_geo", "holdout_id",
   "control_population_scaling_id", "non_media_population_scaling_id", "adstock_decay_spec",
   "saturation_spec", "enable_aks"]

/-- `dataclasses.fields(PriorDistribution)`, `meridian/model/prior_distribution.py:277-509`. -/
def priorFields : List String :=
  ["knot_values", "tau_g_excl_baseline", "beta_m", "beta_rf", "beta_om", "beta_orf", "eta_m", "eta_rf",
   "eta_om", "eta_orf", "gamma_c", "gamma_n", "xi_c", "xi_n", "alpha_m", "alpha_rf", "alpha_om", "alpha_orf",
   "ec_m", "ec_rf", "ec_om", "ec_orf", "slope_m", "slope_rf", "slope_om", "slope_orf", "sigma", "roi_m",
   "roi_rf", "mroi_m", "mroi_rf", "contribution_m", "contribution_rf", "contribution_om", "contribution_orf",
   "contribution_n"]

/-- A model specification: the value of each field, and of each prior. -/
structure ModelSpec where
  field : String → Value
  prior : String → Value

/-- The versions, `_log_versions`, `meridian/mlflow/autolog.py:94-97`. -/
def versionParams (meridian arviz : String) : List (String × String) :=
  [("meridian_version", meridian), ("arviz_version", arviz)]

/-- `_log_model_spec`, `meridian/mlflow/autolog.py:100-116`: what it logs, in order. -/
def specParams (s : ModelSpec) : List (String × String) :=
  (specFields.filter fun n => n ∉ ["prior"]).map fun n => ("spec." ++ n, (s.field n).logged)

/-- `_log_priors`, `meridian/mlflow/autolog.py:119-132`: what it logs, in order. -/
def priorParams (s : ModelSpec) : List (String × String) :=
  priorFields.map fun n => ("prior." ++ n, (s.prior n).logged)

/-- The state of a program: the run, the metrics logged to it, the object the patched method is called on, the
result of the patched method once it was called, how often it was called, and the warnings. -/
structure World (σ α ε : Type) where
  run : Run
  metrics : List (String × String)
  obj : σ
  result : Option (Except ε α)
  calls : ℕ
  warnings : List String

/-- Part of a patch; `true` if it raised. -/
abbrev Step (σ α ε : Type) := World σ α ε → World σ α ε × Bool

/-- Parts one after the other, up to the first that raises. -/
def inOrder {σ α ε : Type} : List (Step σ α ε) → Step σ α ε
  | [] => fun w => (w, false)
  | p :: ps => fun w => if (p w).2 then p w else inOrder ps (p w).1

/-- `mlflow.log_param(k, v)`. -/
def logParam {σ α ε : Type} (S : Service) (kv : String × String) : Step σ α ε := fun w =>
  match S w.run kv.1 kv.2 with
  | some r => ({ w with run := r }, false)
  | none => (w, true)

/-- `mlflow.log_metric(k, v)`; only parameters can be refused. -/
def logMetric {σ α ε : Type} (kv : String × String) : Step σ α ε := fun w =>
  ({ w with metrics := w.metrics ++ [kv] }, false)

/-- The call of the patched method inside the patch. -/
def callOriginal {σ α ε : Type} (f : σ → Except ε α × σ) : Step σ α ε := fun w =>
  ({ w with obj := (f w.obj).2, result := some (f w.obj).1, calls := w.calls + 1 },
    match (f w.obj).1 with
    | .ok _ => false
    | .error _ => true)

/-- `safe_patch` of MLflow: the patched method as the caller sees it. -/
def safePatch {σ α ε : Type} (f : σ → Except ε α × σ) (patch : Step σ α ε) (w : World σ α ε) : World σ α ε :=
  if (patch { w with result := none }).1.result.isSome then (patch { w with result := none }).1
  else (callOriginal f (patch { w with result := none }).1).1

/-- `patch_meridian_init`, `meridian/mlflow/autolog.py:153-160`; `specOf` is the attribute `model_spec` of the
object that has been made. -/
def patchInit {σ α ε : Type} (S : Service) (mv av : String) (specOf : σ → ModelSpec)
    (f : σ → Except ε α × σ) : Step σ α ε :=
  inOrder ((versionParams mv av).map (logParam S) ++ [callOriginal f,
    fun w => inOrder ((specParams (specOf w.obj)).map (logParam S)) w,
    fun w => inOrder ((priorParams (specOf w.obj)).map (logParam S)) w])

/-- The keyword arguments of a call, as text. -/
abbrev Kwargs := List (String × String)

/-- `kwargs.get(name, "default")`. -/
def kwargsGet (kw : Kwargs) (n : String) : String := (kw.lookup n).getD "default"

/-- `patch_prior_sampling`, `meridian/mlflow/autolog.py:162-165`. -/
def patchPrior {σ α ε : Type} (S : Service) (kw : Kwargs) (f : σ → Except ε α × σ) : Step σ α ε :=
  inOrder [logParam S ("sample_prior.n_draws", kwargsGet kw "n_draws"),
    logParam S ("sample_prior.seed", kwargsGet kw "seed"), callOriginal f]

/-- `inspect.Parameter.kind`. -/
inductive Kind where
  | positionalOrKeyword
  | varKeyword
  deriving DecidableEq

/-- The signature of `PosteriorMCMCSampler.__call__`, `meridian/model/posterior_sampler.py:889-905`. -/
def signature : List (String × Kind) :=
  [("self", .positionalOrKeyword), ("n_chains", .positionalOrKeyword), ("n_adapt", .positionalOrKeyword),
   ("n_burnin", .positionalOrKeyword), ("n_keep", .positionalOrKeyword),
   ("current_state", .positionalOrKeyword), ("init_step_size", .positionalOrKeyword),
   ("dual_averaging_kwargs", .positionalOrKeyword), ("max_tree_depth", .positionalOrKeyword),
   ("max_energy_diff", .positionalOrKeyword), ("unrolled_leapfrog_steps", .positionalOrKeyword),
   ("parallel_iterations", .positionalOrKeyword), ("seed", .positionalOrKeyword),
   ("reconstruction_batch_size", .positionalOrKeyword), ("pins", .varKeyword)]

/-- The arguments that are logged, `meridian/mlflow/autolog.py:170-177`. -/
def loggedArguments : List String :=
  (signature.filter fun p => p.1 ≠ "self" ∧ p.2 = .positionalOrKeyword ∧ p.1 ∉ ["current_state", "pins"]).map
    Prod.fst

/-- One row of the predictive accuracy table, `meridian/analysis/visualizer.py:161-163`: metric, level, part of
the data (only with a holdout) and value. -/
structure Row where
  metric : String
  level : String
  part : Option String
  value : String
  deriving DecidableEq

/-- The rows of the table, in the order of the coordinates of the dataset, `meridian/analysis/analyzer.py:3268-3276,
3308-3316` and `meridian/constants.py:642-648`. -/
def table (holdout : Bool) (v : String → String → Option String → String) : List Row :=
  ["R_Squared", "MAPE", "wMAPE"].flatMap fun m => ["geo", "national"].flatMap fun g =>
    if holdout then ["Train", "Test", "All Data"].map fun p => ⟨m, g, some p, v m g (some p)⟩
    else [⟨m, g, none, v m g none⟩]

/-- `get_metric`, `meridian/mlflow/autolog.py:193`. -/
def getMetric (t : List Row) (n : String) : Option String :=
  ((t.filter fun r => r.metric = n).map Row.value)[0]?

/-- Log one metric of the table; an empty column raises. -/
def logTableMetric {σ α ε : Type} (t : List Row) (n : String) : Step σ α ε := fun w =>
  match getMetric t n with
  | some v => logMetric (n, v) w
  | none => (w, true)

/-- The metrics part, `meridian/mlflow/autolog.py:185-203`.  `modelOf` is `self.model` of the sampler and
`tableOf` the accuracy table of a model, which is an error for a model that has not been fitted. -/
def metricsStep {σ α ε μ : Type} (logMetrics : Bool) (modelOf : σ → Option μ)
    (tableOf : μ → Option (List Row)) : Step σ α ε := fun w =>
  if logMetrics then
    match modelOf w.obj with
    | some m =>
      match tableOf m with
      | some t => inOrder (["R_Squared", "MAPE", "wMAPE"].map (logTableMetric t)) w
      | none => (w, true)
    | none => ({ w with warnings := w.warnings ++ ["log_metrics"] }, false)
  else (w, false)

/-- `patch_posterior_sampling`, `meridian/mlflow/autolog.py:167-204`. -/
def patchPosterior {σ α ε μ : Type} (S : Service) (logMetrics : Bool) (modelOf : σ → Option μ)
    (tableOf : μ → Option (List Row)) (kw : Kwargs) (f : σ → Except ε α × σ) : Step σ α ε :=
  inOrder (loggedArguments.map (fun p => logParam S ("sample_posterior." ++ p, kwargsGet kw p)) ++
    [callOriginal f, metricsStep logMetrics modelOf tableOf])

/-- A sampler object, `meridian/model/posterior_sampler.py:655-678`: it knows the model only if it was made from
the model; the sampler of a model, `meridian/model/model.py:480-486`, is made from the context of the model. -/
structure Sampler (μ : Type) where
  model : Option μ

/-- `Meridian.posterior_sampler_callable`, `meridian/model/model.py:480-486`. -/
def samplerOfModel {μ : Type} (_ : μ) : Sampler μ := ⟨none⟩

/-- The keyword arguments of the sampler in `Meridian.sample_prior`, `meridian/model/model.py:1029`. -/
def priorKwargs (nDraws seed : String) : Kwargs := [("n_draws", nDraws), ("seed", seed)]

/-- The keyword arguments of the sampler in `Meridian.sample_posterior`, `meridian/model/model.py:1157-1172`; `arg`
gives each argument of the caller or its default, `pins` the additional arguments. -/
def posteriorKwargs (arg : String → String) (pins : Kwargs) : Kwargs :=
  ["n_chains", "n_adapt", "n_burnin", "n_keep", "current_state", "init_step_size", "dual_averaging_kwargs",
   "max_tree_depth", "max_energy_diff", "unrolled_leapfrog_steps", "parallel_iterations", "seed",
   "reconstruction_batch_size"].map (fun n => (n, arg n)) ++ pins

end Verif.RunLog
