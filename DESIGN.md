# Formal model of google/meridian in Lean 4

## 1. Approach

The model is a shallow embedding: each Python function is transcribed into a
total Lean function over lists, naturals, integers, rationals or reals, branch
by branch; raised exceptions are values of `Except`. Each definition carries a
comment with the file and lines of `/repo` it models.

Layout (`/verif/lean/Verif`):

* `Model/*.lean` - transcription of the code, nothing else.
* `Spec/*.lean`  - small independent specifications (what the property means).
* `Lemmas/*.lean` - proof machinery.
* `Props/*.lean` - the property theorems and, next to each, a concrete
  instance showing that the hypotheses can be met.

Numbers. The code computes in float32/float64. The model computes in exact
arithmetic: an arbitrary ordered field or `Rat` where only field operations
occur, `Real` where powers, exp or log occur. Rounding error, overflow and NaN
propagation from float arithmetic are *not* modelled, except where the code
uses NaN as a data value (missing grid cells, held-out cells); there NaN is
`none`.

Tensors. Batch, geo and channel axes on which an operation acts pointwise are
either dropped (a statement for one series is a statement for each series) or
modelled as functions of an index; the time axis on which the code slices, pads
or reverses is a `List`.

## 2. Trusted base

* Lean 4.33.0 kernel.
* Axioms: at most `propext`, `Classical.choice`, `Quot.sound` (those of Lean and
  Mathlib). No axioms are added; no `sorry`, `native_decide` or `bv_decide`.
* The transcription from Python to Lean (checked by reading only; every
  definition cites its source), and the meaning given to library calls
  (numpy, TensorFlow/JAX, pandas, xarray) in the comments.

## 3. Plan per property

| id | what is modelled | how it is proved |
|----|------------------|------------------|
| C01 | `_adstock` for one series: window, truncation, padding, windowed einsum | equality with an index-free convolution spec, by list/index lemmas |
| C02 | `compute_decay_weights` (geometric, binomial) on reals | sums and `rpow` monotonicity |
| C03 | same as C01 | corollary of the convolution spec |
| C04 | same as C01 | sum inequalities |
| C05 | `_hill` on reals | `rpow` facts |
| C06 | the TF process and the two JAX processes with their transposes and reshapes | index computation, equality for all shapes |
| C07 | the three transformers | field arithmetic |
| C08 | constructors of the transformers | sums over finite index types; median by sorted list |
| C09 | `l1_distance_weights`, `_find_left_knot_indices` | case analysis on position among sorted knots |
| C10 | `get_knot_info` decision logic | case analysis; negation with witness for duplicate knots |
| C11-C15 | `_grid_search` and `_exceeds_optimization_constraints` as a step function over grids of `Option` cells | loop invariants by induction on the number of purchases; exchange argument for optimality |
| C16 | bounds, constraint expansion, rounding | rounding lemmas |
| C17 | `get_round_factor` | digit lemmas (`Nat.log`, powers of ten) |
| C18 | `_create_grids` | arithmetic progression, induction |
| C19 | `trim_grids` | filter = shifted prefix on increasing columns |
| C20 | `_validate_grid` checks | decision logic; negation for selected geos |
| C21 | `_validate_budget` | decision table |
| C22 | `_allocate_tensor_by_population`, `_expand_tensor`, `_allocate_spend` | sums |
| C23-C25 | time coordinate functions over day numbers / civil dates | list induction; negations with witnesses |
| C26 | `InputData.__post_init__` validators | acceptance iff predicate |
| C27 | `OrderedListArgumentBuilder` | list lemmas; negation for the default case |
| C28 | builder setters as a state machine | commutation of setters; negation for failed setter |
| C29 | allocation and aggregation of spend | sums |
| C30 | `calculate_beta_x` + coefficient construction | field / exp-log algebra |
| C31 | the per-type branches of the two samplers | equality of functions; negations with witnesses |
| C32 | holdout branch of the likelihood | Gaussian log density computation |
| C33 | `_compute_tau_g` | list insertion lemmas |
| C34 | batch index generator, flatten/concat | list induction |
| C35 | `expected_outcome`, `incremental_outcome`, baseline inputs | linearity, Hill/adstock at zero |
| C36 | `_resolve_*_indices`, `filter_and_aggregate_by_indices` | sums over filtered lists |
| C37 | coordinate construction in the summary functions | negation with witness; positive part for data order |
| C38 | ROI/CPIK/percentage arithmetic | field algebra |
| C39 | `response_curves` | monotonicity composed from C01-C05 |
| C40 | frequency re-expression and argmax | field algebra; list argmax |
| C41 | `compute_non_media_treatments_baseline` | min/max specs |
| C42 | `ModelSpec.__post_init__` | decision logic |
| C43 | `HyperparametersSerde` | round trip; negation for one-element knots |
| C44 | `FunctionRegistry.validate` | iff |
| C45 | date bucketing | induction over dates |
| C46 | the two stabilisation functions | column-wise equality |
| C47 | `_ldl`, `_bandsolve_kernel` | linear algebra |
| C48 | the spline search `automatic_knot_selection`, `aspline` with the fit as a parameter | invariants of the candidate list; argmin |
| C49 | the likelihood mean of `_joint_dist_base_logic` and `_get_kpi_means` | equality of the two linear predictors |
| C50 | shape checks of `ModelContext` | decision logic |
| C51 | `DataFrameDataLoader` and the data frame builder | lookup in the list of rows; permutation invariance |
| C52 | tensor messages of the JAX backend, elements as bit patterns | round trip by cases on the dtype |
| C53 | `DistributionSerde`, parameters as a nested inductive type | structural induction |
| C54 | `expected_outcome` down to adstock, Hill and transformers | unfolding to an independent equation, real algebra |
| C55 | the two log-normal helpers and the default total-contribution prior | Mathlib measure theory (Gaussian integrals) |
| C56 | support checks and broadcasting of `PriorDistribution` | decision logic; per-channel lookup |
| C57 | `_validate_geo_invariants`, `_check_if_no_*_variation`, spend check | iff with an independent statement about variances |
| C58 | `IndependentMultivariateDistribution` | list concatenation and splitting lemmas |
| C59 | `distributions_are_equal` on nested distributions | structural induction; witnesses of the deviations |
| C60 | thinning and restoring as a state machine over histories | index arithmetic with floors; invariant over histories |
| C61 | `save_meridian`, `load_meridian` over a file system with crash points | case analysis over the steps of the save |
| C62 | `get_central_tendency_and_ci`, `numpy.quantile` | order statistics, counting |
| C63 | `predictive_accuracy` with IEEE special values | sums over selected cells |
| C64 | `expected_vs_actual_data`, `ModelFit` | cell-wise equality, sums |
| C65 | `get_rhat`, `rhat_summary`, `ConvergenceCheck` | loop invariants for the maximum with NaN comparisons |
| C66 | the checks and the reviewer, injected summaries | counting, case analysis over the battery |
| C67 | the health score | real analysis (exp, powers), weighted means |
| C68 | input data as records per geo and time, and back | list lemmas on grids of records, dictionaries in order of insertion; negations by evaluation |
| C69 | correlation, variance inflation, KPI variability, the guardrail before sampling | Cauchy-Schwarz with its equality case, infimum of residuals, closedness of finite-dimensional spans |
| C70 | quartile fences, standard deviations with and without outliers, the check and its findings | order statistics, a case split on the length modulo 4 |
| C71 | cost per media unit: contradictions and outliers | list membership, rescaling of order statistics |
| C72 | from raw arrays to the geo-level and national series of the checks, and which checks raise | sums, homogeneity of the median, lists of variables |
| C73 | average ranks, least squares on a category, the artifacts of the informative checks | counting, sums of squares decomposed, infimum attained at group means |
| C74 | the weekly grid as outcomes by week, channel and multiplier; interpolation; the checks of dates and bounds | induction over the nodes, sums over weeks exchanged with interpolation, rounding within half a step |
| C75 | the multipliers, the outcomes by batch, joining grids | membership in the rounded range, sorted lists of weeks are unique |
| C76 | the outcome grid, the report of a budget, warnings about targets | both reduce to the lift of one channel between two multipliers (C15), reach and frequency columns are proportional |
| C77 | the rows behind the charts and tables of a result, with the Vega transformations | running sums of a sorted list, membership in a range of multiples of 0.01 |
| C78 | the number formats and the figures of a result as lists of characters, and how they are read | digits of a number by induction, logarithms to base 10 and 1000 |
| C79 | the summary and baseline tables cell by cell, with all variables, distributions and statistics | cells as sums over the selected geos and times, the decomposition of C35 per cell |
| C80 | the report of `optimal_freq` on top of the summary table | the effect of a channel depends on its own data only; nanargmax |
| C81 | the rows of both tables and of the histogram | membership and lengths of the tables, monotonicity of powers and of the Hill function, each observation is in exactly one bin |
| C82 | the objects, their operations and the class-wide LRU caches as a transition system; the choice of response curves | an invariant of the caches by induction over the history; sorted permutations for the choice of channels |
| C83 | the rows of the tables and the derived columns of the charts | sorted permutations; linearity of the mean over draws and the decomposition of the expected outcome (C79); counting for the ranks; induction over the sorted dates |
| C84 | the rows and the text of every cell, with the thousands separators | induction on the groups of digits; rounding error and monotonicity of rounding (C78); case analysis over the quantities |
| C85 | date arithmetic day by day, the closed interval, the enumerated and boolean selection, the collapsed, resolved and per-date intervals | induction on days and on the list of dates; the selection theorem of C23 |
| C86 | grouping, the table of processors, the call of each processor and the fields they write | induction on the list of specs from the right and on the groups |
| C87 | the datasets of C64 and of the accuracy claim, the selection of entries, the intervals and the messages | membership in the datasets from C64; uniqueness of positions from the order of the dates; case analysis on holdout and split |
| C88 | specs, resolution on the model dates or those of the new data, the calls of the analyzer with all their arguments, and the construction of every message | inversion of every step; positions from distinct names and dates |
| C89 | specs, constraints and scenarios, the call of the optimizer with all its arguments, resolution of dates and constraints, and the construction of every message | inversion of every step; rounding is idempotent, so bounds recomputed from rounded spend are the bounds of the search (C16); allocations are grid values between them (C10, C16) |
| C90 | specs, the grid of frequencies, the calls of the analyzer with all their arguments, and the construction of every message | inversion of every step; decimal rounding and arange over multiples of one tenth; sums of quotients; resolution of dates (C85) |
| C91 | construction and validation of new data, fixed and flexible periods, filling, selection of geos and times, resolution of counterfactual inputs and the mask of media periods | inversion of every check; case analysis on dimensions; selections by the lemmas of the selection claim |
| C92 | all twelve converters, the wrappers of the message with their dictionaries and sums of spend, names of sheets, check of groups and of table names | each converter by an equivalence (succeeds exactly if, with these rows); sums and dictionaries by induction; names by prefixes |
| C93 | checks of the kinds, dates and groups of specs, derived reach and frequency specs, enumeration of dates, sub-specs with their tags, the order of all specs | acceptance as an equivalence and output as an exact description by induction over the list; labels are injective and free of colons; calendar buckets from the earlier claims |
| C94 | the methods of the builder for arrays, checks of coordinates and shapes, labelling, setting, aligning and the checks of the input data | acceptance as an equivalence by composing the builder and the input data theorems; values by position of labels; findings by induction over sessions |
| C95 | the three calibration checks with their results, highest-density interval, shares of spend, correlation matrix | minimality of the interval through ranks of sorted draws; flags by rearranging the inequalities; invariance through affine lemmas on correlation |
| C96 | the constructor of XrDatasetDataLoader with mapping, geo dimension and split of the times, and `load`, on top of the builder of C28 | acceptance and values of the builder, transported through the split by labels; induction over the components; a left inverse for the mapping |
| C97 | the three lookups of the model context, the check of channel names, the coordinates and dimensions of samples, and the largest geos | distinct names make the position unique, so that the search over types finds the channel of the name; induction over the channels for the medians and over the geos for the sort |
| C98 | the sampling methods of the model object with the states they pass through, the loop over batches of chains, and the random number handlers of both backends | induction over the batches with the theorems of C34 on their joining, over the order of the groups, and over histories; seeds are paths in a tree of splits |
| C99 | the dates, the granularity, the accuracy table and the sentences of the summary page, with metrics that may be infinite or undefined | case analysis on the limits with the theorems of C23-C25 on dates, the table of C63 and the number formats of C78; the sort is any function that meets its specification, and one is exhibited |
| C100 | boolean masks, splits, counted values, gathering and ranges of both backends over arrays of any shape | list lemmas on moving axes, induction on the sizes, and uniqueness of sorted lists; for the refused columns the count of a column is its number of rows and the first row orders them |
| C101 | the lookup of findings, the counts of the cards, the summary table, the tables of inflated variables with partners, and saving, over the findings of C69 and C70 | case analysis on the lookups, uniqueness of each finding by induction over the loop of the check, the equivalences of C69 for the check before sampling, and induction over the pairs for partners |
| C102 | the sort and limit of the tables, the notes, the channels of the time series, the greedy choice of variables of the heatmap, bars, shares, box plots and geos | a list sorted by a total order is split at the limit, so the rest follows; induction over the sorted pairs with the invariants of the greedy loop; a sum over groups by induction |
| C103 | a store of arrays, objects that refer to them, the constructor with its effects on the store, deep and shallow copies, changes in place and by assignment, the arrays of the dataset, and the scaled KPI over the reals | invariants over the loops of the constructor and of the copy relating each attribute to the one before; two objects without a common array stay so under every step, by induction over histories; C26 for acceptance |
| C104 | the patches as lists of steps over a world with the run, the object and the result of the patched method; a tracking service as any function that logs or refuses; JSON of arrays of flags at the level of characters | every step but the call leaves object, result and count alone; induction over the steps; flags and rows form a prefix code |
| C105 | tables, requests, a service that adds, deletes and fills sheets; percent encoding by bytes, the link as a list of characters | induction over the titles for the batch and over the tables for the fill; encoding inverted byte by byte; splitting at & inverts joining |
| C106 | the two earlier selections, the injection of their knots in the context, the dispatch by version; the penalised fit is a parameter | one normal form of the selections that differ in the scale of the criterion; exchange argument for two scales; increasing lists with the same members are equal |
| C107 | the checks of the constructor, the replacement of distributions, the distributions that the two samplers read, the warnings | membership of a distribution in what is read, by kind; another distribution exists outside any three, so a read one has an effect |
| C108 | the search, its stopping rules and the optimizer of C11 to C21 | the sequence of purchases does not depend on the request, which only decides where it stops; each purchase spends more; the target separates the steps bought from those left |
| C109 | the bounds, percentages, historical flag and dates of the report, with machine rounding | the relative error of one rounding and its monotony give bounds for the composed expression; the exceptional percentages are the whole finite set; the historical spend follows from the optimizer of C11 to C21 |
| C110 | writing and reading of the groups with NetCDF as a parameter, the convergence message | the loaded groups are computed exactly and compared as sets of names and by lookup; the R-hat limit by cases on the machine numbers |
| C111 | a process with its configuration, the loaded module and the JAX setting; histories of selections, reloads and changes; the marks of models and files; the rules of types; the JAX container | induction over histories with the loaded module as invariant; cases on the types; lookups in the container after sorting and splitting |
| C112 | the messages of earlier versions as a tree, the distributions made from them, the container and the choice between the two kinds; the EDA specification and its message with the presence of every field; the pickled state of nested distributions | induction over messages and nested distributions; cases on the presence of fields; the round trip of aggregation functions from C44 |
| C113 | `response_curves` with its call of `optimal_freq` and `incremental_outcome` (`Verif.Model.CurveTable`, on top of `Verif.Model.Summary`) | induction over the multipliers; the points through the incremental outcome as a difference of expected outcomes (C35), the frequencies through C80; linearity in reach for the comparison of frequencies |
| C114 | currency codes from the data to the reports, with the spend charts (`Verif.Model.Currency`, on top of the formatter, chart and page models) | stripping and capitals commute, so all variants have one clean code; the texts carry the symbol by their form; the bars through C77 |
| C115 | the shape checks, gathers and sum over axes of tensors of any rank (`Verif.Model.TensorFilter`, on top of `Verif.Model.Selection`) | last axes by list algebra; the two gathers change one position of the index each; sums over positions are sums over the selected indices, which C36 shows to be the selected ones, each once |
| C116 | The texts of all nine kinds of results, the printed review, the statuses by name, the rows and the HTML of the health card, the rule of jinja2 for escaping, the chip of the selected geos | by induction on the lists; a text 'says' another if it contains it unchanged |
| C117 | The chain of the two bijectors, the law and the log-density of the transformed distribution, the exponent and the weights made of a draw | image measures, almost sure equality on the non-negative numbers and the change of variables for integrals in one dimension |
| C118 | The labels collected over the dimensions, the series over the variables, the merge and the selections of the engine's datasets | induction on the arrays; the list of first occurrences of a list without repetitions is the list, and is shorter otherwise |
| C119 | Grouping the stacked variables by name, sorting and cutting the values, the note, the check of names, the counts of the adequacy table | induction on the lists of names; the sort is a sorted permutation |

## 4. Findings

Where the code does not do what its documentation or its users expect, the negation (or the exact
behaviour) is a theorem with a concrete witness:

| property | theorem | behaviour of the code |
|---|---|---|
| C03 | `Adstock.Props.leading_zeros_matter_below_window` | with fewer periods than the window, prepending periods without media changes the adstock |
| C07 | `Transformers.Props.kpi_lost_in_empty_geo` | a geo without population loses its KPI in the transformation |
| C10 | `Knots.Props.repeated_knots_inconsistent` | repeated knot locations give an inconsistent layout |
| C11 | `Optimizer.Props.optimized_total_can_exceed_budget`, `budget_left_unspent` | rounding lets the optimised total exceed the requested budget; without diminishing returns the search stops at the first purchase that does not fit and can leave 30% of a fixed budget unspent |
| C15 | `GridSearch.Props.target_roi_not_guaranteed` | the ROI target of a flexible budget can be missed |
| C16 | `Optimizer.Props.negative_percentage_accepted` | negative shares of spend are accepted |
| C17 | `Optimizer.Props.gtol_guarantee_fails` | the documented tolerance of the grid does not hold |
| C20 | `GridReuse.Props.own_grid_rejected`, `accepted_grid_fails`, `stale_grid_used` | a reused grid for selected geos is rejected or fails; a grid of other data is used |
| C21 | `Optimizer.Props.target_roi_zero_rejected_late` | a target ROI of zero is rejected late |
| C22 | `Spend.Props.zero_frequency_loses_impressions` | impressions are lost where frequency is zero |
| C23 | `TimeCoordinates.Props.open_interval_rejected` | an interval with an open end is rejected although documented |
| C24 | `TimeCoordinates.Props.month_end_gap`, `four_week_overlap`, `fiscal_quarters_rejected` | periods of calendar cadence can leave gaps, overlap, or be refused |
| C25 | `TimeCoordinates.Props.repeated_date_accepted` | repeated dates are accepted |
| C26 | `InputData.Props.transposed_kpi_accepted`, `spend_of_other_geos_accepted`, `controls_of_other_dates_accepted`, `media_of_other_dates_accepted`, `negative_media_accepted`, `media_without_spend_accepted` | inconsistent input data is accepted |
| C27 | `Options.Props.unknown_name_ignored` | with a default, unknown channel names are ignored |
| C28 | `Builder.Props.tied_labels_order_dependent`, `rejected_component_kept`, `rejected_component_used` | the order of calls matters for tied labels; a rejected component stays in the builder |
| C29 | `Spend.Props.no_units_no_allocation`, `mixed_spend_has_no_total` | spend without units cannot be allocated; mixed ranks of spend have no total |
| C30 | `Sampler.Props.mroi_prior_ignored_without_saturation`, `nonMedia_contribution_population_scaled` | the marginal ROI prior of channels without saturation is an ROI prior; the contribution of population-scaled treatments is not the prior draw |
| C31 | `Sampler.Props.organic_rf_prior_type_mismatch`, `baselines_differ` | prior and posterior samplers disagree for organic RF prior types and for non-media baselines |
| C32 | `Sampler.Props.held_out_kpi_enters_the_scale` | the held-out KPI enters the scale of the model |
| C34 | `Batching.Props.no_draws_no_deterministic_variables` | without kept draws the deterministic variables are missing |
| C35 | `Mmm.Props.incremental_wrong_at_slope_zero` | with slope zero the incremental outcome is not the difference |
| C37 | `Labels.Props.summary_geo_labels_swapped`, `baseline_time_labels_swapped` | selections not in data order are labelled wrongly |
| C38 | `Metrics.Props.roi_total_spend_mismatch` | ROI with aggregated spend can be computed with mismatching spend |
| C42 | `Options.Props.max_lag_unchecked`, `negative_knots_accepted` | invalid options are accepted |
| C43 | `SpecSerde.Props.one_location_becomes_number`, `knot_at_zero_not_loadable`, `one_location_meaning_changed`, `numpy_geo_lost`, `odd_baseline_not_loadable` | specifications that do not survive saving |
| C44 | `Registry.Props.changed_function_accepted` | hashes of registered functions go stale, a changed function is accepted |
| C45 | `DateBuckets.Props.month_number_merges_years` | the monthly generator merges months of different years |
| C46 | `Stabilize.Props.negative_roi_differs`, `no_rf_overwrites_media` | the backends differ for negative ROI |
| C47 | `BandSolve.Props.ridge_solver_fails_on_flat_data` | automatic knots fail on a flat KPI |
| C51 | `DataFrame.Props.unpaired_columns_ignored`, `empty_column_dropped`, `lagged_revenue_rejected` | columns are silently left out; a documented data frame is rejected |
| C52 | `TensorProto.Props.numbers_round_trip` | scalar unsigned integers and some empty arrays are written but cannot be read |
| C53 | `DistSerde.Props.default_in_dict_lost`, `large_int_not_saved`, `tuple_not_saved` | priors that are not saved or not loadable |
| C56 | `Priors.Props.one_knot_any_length`, `negative_prior_accepted_by_default`, `rf_judged_by_media_prior_type` | checks of priors that do not apply |
| C58 | `Multi.Props.equal_distributions_equal_draws`, `not_independent` | components of the same kind draw identical numbers from a seed |
| C59 | `DistEq.Props.not_symmetric`, `batch_equals_scalar`, `nan_not_equal`, `sizes_raise` | deviations of the comparison of distributions |
| C60 | `Thin.Props.restore_undoes_refit`, `restore_raises_if_all_kept`, `second_fit_not_preserved` | restoring brings back an old fit, or raises |
| C61 | `SaveLoad.Props.crash_loses_saved_model`, `failed_save_loses_saved_model`, `unsupported_empties_file`, `bare_name_refused`, `review_lost`, `resaved_old_model_changes` | saving is not atomic and loses data |
| C62 | `Interval.Props.negative_level_swaps`, `mean_outside_interval` | a negative level is accepted; the mean may lie outside its interval |
| C63 | `Accuracy.Props.split_is_wrong`, `other_form_refused` | dates in another form give the wrong holdout split |
| C64 | `FitData.Props.mixed_blank`, `plotted_band_wrong`, `update_forgets_kpi` | blank sums, wrong national bands, forgotten option |
| C65 | `Rhat.Props.masked_dilute`, `fixed_first_parameter_fails`, `nothing_known` | the R-hat share is diluted; a fixed first parameter fails the convergence check |
| C66 | `Review.Props.mixed_priors_raise`, `gof_nan_passes`, `infinite_prior_mean_always_shifts`, `custom_battery_not_injectable` | the default review raises for mixed prior types; undefined statistics pass |
| C67 | `Health.Props.ppp_boundary`, `convergence_irrelevant`, `nan_fit_nan_score`, `inverted_thresholds`, `equal_thresholds` | score and status disagree |
| C68 | `DataSerde.Props.reach_fraction_lost`, `short_dates_not_loaded`, `other_dates_lost`, `unnamed_geo_lost`, `order_of_geos_changed`, `empty_currency_lost` | input data that do not survive saving |
| C69 | `Eda.Props.constant_kpi_may_pass`, `varying_kpi_may_fail`, `single_cell_fails`, `kpi_passes_iff` | the KPI check looks at the KPI per head; its threshold has no effect between 0 and 1; the documentation of the threshold has the wrong direction |
| C70 | `EdaStd.Props.sparse_reported`, `others_are_outliers` | a channel that is off in more than three quarters of the periods is always said to have zero variation, and each of its active periods is an outlier |
| C72 | `EdaData.Props.silent_channel_accepted_not_sampled` | a reach and frequency channel that was on before the modelled periods only: the model is accepted, sampling is refused because a check raised an exception; a media channel in the same situation is not refused |
| C73 | `EdaMore.Props.constant_over_time_not_nan`, `collinearity_unit_matters` | the docstring announces NaN for a variable constant over time; the report has a negative number; the threshold for a constant variable is absolute, so that the report depends on the unit |
| C74 | `Weekly.Props.outcome_without_spend`, `outcome_cut_off` | the bounds are checked against the rounded historical spend but outcomes are looked up with the exact one: a channel whose spend rounds to zero gets the outcome of the smallest multiplier for no spend, and a level beyond the largest multiplier gets the outcome of the largest |
| C74 | `Weekly.Props.refused_within_limits`, `refused_because_of_step` | a scenario within the limits a weekly grid was made for is refused, because of rounding or because the step does not lead to the upper limit |
| C75 | `Weekly.Props.negative_multipliers`, `single_grid_unchecked` | a variation above one is accepted and gives negative multipliers; a single grid with missing weeks is accepted by `combine` |
| C76 | `Results.Props.no_history_no_outcome`, `unpaid_channel_reported_zero` | a channel without historical spend in the period is reported with an outcome of zero whatever its executions do |
| C77 | `ResultCharts.Props.axis_cuts_off`, `negative_number_accepted`, `other_form_selects_nothing`, `channel_called_optimized`, `unknown_change_left_out` | the waterfall chart is cut off if the total falls; a negative number of channels is accepted; new times in another notation select nothing; a channel called `optimized` or with an unknown outcome is shown wrongly or not at all |
| C78 | `Formatter.Props.thousand_thousands`, `negative_zero`, `negative_percentage`, `shown_change_differs`, `cpik_increase_unsigned` | 1000k instead of 1M; -0; a negative percentage with an exponent; the change of the ROI is not the difference of the shown values; no plus sign for an increase of the cost per incremental KPI |
| C79 | `Summary.Props.optimal_frequency_without_effect`, `organic_frequency_rejected` | the argument `optimal_frequency` of `summary_metrics` does not change the table; with non-paid channels it fails if there are as many organic as paid reach and frequency channels only by chance |
| C80 | `FreqReport.Props.optimized_level_ignored`, `prior_only_rejected`, `low_frequency_rejected` | the confidence level is ignored for the optimised quantities; the posterior is needed for a report of the prior; no report if no frequency exceeds 1 |
| C81 | `MediaCurves.Props.last_lag_missing`, `no_carryover_shown`, `binomial_undefined`, `curve_for_linear`, `plot_without_prior_drops_histogram` | the largest lag is never shown; effects are shown after a fraction of a period though the maximum lag is 0; missing values for binomial decay with more lags than periods; Hill curves for channels without saturation; no histogram in the plot without prior |
| C82 | `Views.Props.update_ignored`, `stale_after_update`, `title_not_intervals`, `title_cuts`, `by_reach_ignored`, `title_counts_all` | an update after a request is ignored by the same request; chart titles give another level than the intervals; `MediaEffects(by_reach=…)` has no effect; the title of the response curves counts channels without curve |
| C83 | `Contrib.Props.zero_total`, `selection_incomplete`, `upper_collides`, `negative_roi_reversed`, `scaled_roi_negative`, `equal_axes_cut`, `stale_times_mixed` | baseline without outcome; shares of a selection do not add up; colliding names in the waterfall; reversed order of negative ROIs; equal axes cut off negative values; baseline and channels for different times |
| C84 | `SummaryTable.Props.returns_shown_equal`, `nan_hides_decimals`, `spend_without_currency`, `sign_after_currency` | different returns shown as equal; NaN in the first row hides decimals; spend without currency for a KPI; sign after the currency |
| C85 | `DatedSpec.Props.empty_range_never_resolves`, `month_end_refused`, `month_intervals_do_not_tile` | an empty range is accepted and fails later; a month start as end is refused for monthly data; monthly intervals leave gaps and overlap |
| C86 | `Consumer.Props.duplicate_only_with_specs`, `derived_spec_refused`, `not_fitted_never_said` | duplicate processors unnoticed without specs; derived spec types refused; unfitted model gives an attribute error |
| C87 | `FitProto.Props.unsplit_fails_with_holdout`, `partial_holdout_is_nan`, `actual_not_split` | split=False fails with a holdout; partially held-out dates are NaN in Train and Test; actual values not split |
| C88 | `MarketingProto.Props.incremental_non_paid_ignored`, `media_times_ignored`, `total_is_non_media`, `baseline_ignores_new_data`, `baseline_of_other_period`, `baseline_in_revenue_only`, `cost_and_return_both` | two spec fields have no effect; total reported as non-media; baseline and curves ignore new data; baseline lacks the KPI; cost and return always both |
| C89 | `BudgetProto.Props.cells_misaligned`, `zero_accepted_never_run`, `reported_budget_not_historical`, `label_mismatch` | grid rows paired by count only; zero budget and zero target accepted but never run; reported budget is the rounded optimized total; spec labelled non-revenue with outcomes labelled revenue |
| C90 | `ReachProto.Props.share_in_percent`, `reach_ignores_dates`, `curves_ignore_range`, `zero_minimum_never_runs`, `zero_maximum_ignored`, `minimum_above_model_never_runs`, `labels_disagree` | percentage instead of fraction; reach of all dates; curves not restricted to the range; accepted minima which never run; maximum zero ignored; KPI labels of spec and outcomes differ |
| C91 | `NewData.Props.ignored_variable_refused`, `time_count_unchecked`, `time_count_index_error`, `one_date_changes_all` | ignored variables count for the periods; number of time coordinates not checked or reported by IndexError; one date changes all periods |
| C92 | `Tables.Props.implicit_constraints_omit_reach`, `missing_outcome_refused`, `zero_total_fails`, `similar_names_refused`, `all_channels_second`, `needs_all`, `needs_target` | implicit constraints omit reach and frequency channels; one channel without an outcome, cancelling shares, similar grid names, missing analysis or target end the whole conversion; all channels sorted second |
| C93 | `UiSpecs.Props.kpi_not_passed_on`, `grid_names_collide`, `ignored_frequency_refused`, `monthly_parts_unresolved`, `new_data_parts_unresolved`, `marketing_tags_collide` | the derived reach and frequency optimization is always for revenue; equal grid names from equal names; an ignored maximal frequency ends the generation; parts of monthly data or for new data do not resolve; tags of two marketing analyses collide |
| C94 | `NdArray.Props.organic_never_builds`, `flat_national_refused`, `single_geo_refused` | organic frequency is named organic_reach, so that organic reach and frequency can never be built; documented flat shapes are refused; a single geo must be called national_geo |
| C95 | `Calibration.Props.zero_median_passes`, `wide_interval_passes`, `reported_defaults`, `reported_bound_contradicts`, `constant_channel_passes`, `documented_direction_reversed` | a median of zero hides any variance; results report default thresholds; constant channels pass the bias check; its documentation is reversed |
| C96 | `XrLoad.Props.flat_spend_refused` | the documented shape `(media_channel)` of spend is refused for every geo dataset |
| C97 | `Lookup.Props.control_shadows_channel` | a control variable named like a channel makes the scaling factor of the channel unavailable |
| C98 | `Lifecycle.Props.refit_keeps_old_review`, `Lifecycle.Props.thinning_misaligns` | the review of an old fit stays after a new fit; the sampling statistics do not follow the thinning of the posterior |
| C99 | `Page.Props.shown_end_months`, `Page.Props.granularity_ignores_cadence`, `Page.Props.small_error_shown`, `Page.Props.infinite_roi_named`, `Page.Props.negative_cost_named`, `Page.Props.names_alike` | the end shown for monthly data is off; three years of months are charted weekly, two months of days quarterly; the same error reads 0% or 0.4%; channels without spend or with negative effect are named best; channel names are re-capitalised |
| C100 | `ArrayOps.Props.mask_differs`, `ArrayOps.Props.split_unchecked`, `ArrayOps.Props.unique_order_differs`, `ArrayOps.Props.gather_out_of_range`, `ArrayOps.Props.arange_backwards` | the JAX backend masks other entries with a mask of two axes away from the first; it accepts sizes that do not add up, positions out of range and empty ranges that TensorFlow refuses; values come in different orders |
| C101 | `EdaReport.Props.pair_not_counted`, `EdaReport.Props.not_counted`, `EdaReport.Props.partner_not_named`, `EdaReport.Props.failed_report_empties_file` | the exploratory report does not count pairs of variables that are too correlated to sample, so it can show no fail for a model that refuses to sample; findings about reach, frequency and outliers of the KPI are not counted; a failed report empties the file |
| C103 | `DataObject.Props.refused_yet_relabelled`, `constructed_shares`, `shallow_shared`, `copy_resets_revenue`, `dataset_of_odd_data` | the constructor of input data relabels the arrays of its caller in place, even if it raises; copies of revenue data reset the revenue per KPI; `as_dataset` fails for accepted data with media but no spend |
| C104 | `RunLog.Props.no_metrics_from_model`, `metrics_of_previous_fit`, `positional_recorded_as_default`, `second_model_unrecorded` | `autolog(log_metrics=True)` never logs a metric for `Meridian.sample_posterior`; samplers made from a model log the metrics of the previous fit; arguments by position are logged as `default`; a second model in the same run is dropped silently |
| C105 | `Publish.Props.upload_ok_iff`, `rf_alone_not_linked` | an upload without tables, or with a table named like the default sheet, raises after the spreadsheet was made and leaves it empty; reach and frequency optimizations alone are not linked |
| C106 | `LegacyKnots.Props.resaved_always_other_knots`, `resaved_silently_moved`, `resaved_171_other_knots` | a model of an earlier version, loaded and saved by this one, has other knots when it is loaded again; its samples are refused or taken for those of the new knots |
| C107 | `Announce.Props.unpaid_never_announced`, `absent_channels_silent`, `geo_arguments`, `revenue_warning_iff` | distributions of organic and non-media channels that are ignored are never named; a selection of geos in a national model gives no warning; a revenue KPI always warns about an ignored revenue_per_kpi unless ones were given |
| C108 | `Nested.Props.zero_budget_is_historical`, `larger_budget_less_spent` | a fixed budget of zero is taken for the historical spend; a larger budget can spend less on every channel because the rounding step jumps |
| C109 | `ScenarioText.Props.understated`, `equal_list_not_named`, `shares_not_historical`, `two_ends` | a constraint of 20 percent is reported as 19 percent; equal constraints per channel are called varied; with given shares the report claims historical spend; two different ends of the period, neither the last day |
| C110 | `Archive.Props.diverged_recorded_converged` | models far from convergence are recorded as converged in the saved message |
| C111 | `Engine.Props.only_reload`, `x64_variable_ignored`, `reported_precision_stale`, `provenance_lost`, `whole_numbers_narrowed`, `result_type_numpy` | `set_backend` does nothing without a reload, the 64-bit variable is ignored with it, the reported precision can be stale, and a model saved again loses the backend it was fitted with |
| C112 | `OldFiles.Props.absent_bound_is_zero`, `zero_bound_not_reported`, `empty_container_not_checked`, `absent_vif_threshold_is_zero`, `mixture_not_packed` | absent bounds and thresholds are read as 0, an overridden zero is silent, functions of default priors are unchecked |
| C113 | prior_curves_use_posterior, prior_curve_not_at_prior_optimum | `response_curves(use_posterior=False, use_optimal_frequency=True)` calls `optimal_freq` without `use_posterior`: the prior curves are at the frequencies best for the posterior, and a model with prior draws only is refused |
| C114 | results_page_in_dollars, page_and_report_differ, report_always_warns, unchanged_channel_red, empty_code_lost | the sentences of the results page contain a literal dollar sign; `output_optimization_summary` passes the resolved symbol to `plot_spend_delta`, which then warns that `currency` is deprecated; a bar is red unless the change is positive; the empty code warns but is lost on saving |
| C115 | flags_of_tensor_refused, misread_iff, misread_sum | the wrapper resolves flags against the number of times of the model, not of the tensor; a tensor [..., n, n, n] with n geos, n times and n a possible number of channels is always read as having a channel axis, as can happen to the draws of `expected_outcome` |
| C116 | markup_unescaped, parts_run_together, passing_names_nothing, nan_reported_converged | names with markup enter the pages unescaped although these are called sanitized; sentences of the ROI text are glued together; a check that passes under a limit names none of the failing channels; NaN R-hats are reported as converged |
| C117 | range_iff, point_mass_slips | the argument is not checked for negative values; a point mass at alpha = 1 passes the validation when declared as exponent zero |
| C118 | out_of_order | a dataset whose dimensions and variables are in different orders is stacked with the names exchanged |
| C119 | pooled | a control named like a channel is accepted and pooled with it in the R-squared tables |

## 5. Which parts of the code are modelled

Lines cited by the definitions of `Model/` (per source file: number of lines, lines cited, model modules). Lines that are not cited are not modelled: documentation strings, messages, plotting, and the functions listed in section 6.

| source file | lines | cited | modules |
|---|---|---|---|
| meridian/analysis/analyzer.py | 4726 | 3870 | Accuracy, Announce, Batching, CurveTable, Curves, EdaMore, FitData, Interval, Labels, MediaCurves, Metrics, Mmm, Results, Review, Rhat, RunLog, Selection, Spend, Summary, TensorFilter |
| meridian/analysis/optimizer.py | 3321 | 2119 | BudgetProto, Currency, Formatter, GridReuse, GridSearch, Num, Optimizer, ResultCharts, Results, ScenarioText, Spend, Stabilize |
| meridian/analysis/review/checks.py | 1234 | 718 | Calibration, HealthCard, Review, Rhat |
| meridian/analysis/review/configs.py | 249 | 161 | Calibration, Review, Rhat |
| meridian/analysis/review/constants.py | 98 | 37 | Calibration, Health, HealthCard |
| meridian/analysis/review/results.py | 1041 | 884 | Calibration, Health, HealthCard, Review, Rhat |
| meridian/analysis/review/reviewer.py | 423 | 267 | Health, HealthCard, Review |
| meridian/analysis/summarizer.py | 544 | 218 | Currency, Page |
| meridian/analysis/summary_text.py | 267 | 9 | Currency, Page |
| meridian/analysis/tensors.py | 1509 | 1160 | Curves, Metrics, Mmm, NewData, Selection, Summary, TensorFilter |
| meridian/analysis/visualizer.py | 2783 | 2093 | Archive, Contrib, Currency, FitData, MediaCurves, Page, RunLog, SummaryTable, Views |
| meridian/analysis/weekly_optimization_grid.py | 940 | 715 | Weekly |
| meridian/backend/__init__.py | 1613 | 908 | Accuracy, Adstock, AdstockJax, ArrayOps, DistEq, Engine, Lifecycle, Results, Stabilize, TensorProto, Transformers |
| meridian/backend/config.py | 130 | 90 | Engine |
| meridian/common/currency.py | 82 | 52 | Currency |
| meridian/constants.py | 839 | 269 | Accuracy, Announce, Batching, Builder, Contrib, Currency, DistSerde, Eda, EdaCharts, InputData, LogNormal, Lookup, NewData, ResultCharts, Rhat, RunLog, Sampler, Tables, XrLoad |
| meridian/data/arg_builder.py | 107 | 19 | Options |
| meridian/data/data_frame_input_data_builder.py | 775 | 635 | DataFrame |
| meridian/data/input_data.py | 1126 | 659 | Announce, Calibration, Currency, DataObject, DataSerde, EdaTables, InputData, Lookup, Options, Sampler, Spend |
| meridian/data/input_data_builder.py | 773 | 661 | Builder, Currency, NdArray |
| meridian/data/load.py | 1031 | 601 | Currency, DataFrame, XrLoad |
| meridian/data/nd_array_input_data_builder.py | 509 | 468 | NdArray |
| meridian/data/time_coordinates.py | 355 | 201 | TimeCoordinates |
| meridian/data/validator.py | 65 | 39 | Builder, InputData |
| meridian/mlflow/autolog.py | 216 | 85 | RunLog |
| meridian/model/adstock_hill.py | 483 | 280 | Adstock, AlphaPrior, MediaCurves, Mmm, Options |
| meridian/model/context.py | 1348 | 1000 | Accuracy, Announce, ArrayOps, EdaData, Identify, LegacyKnots, Lookup, Options, Priors, Sampler |
| meridian/model/eda/constants.py | 388 | 6 | EdaCharts, EdaData, EdaStd, EdaTables |
| meridian/model/eda/eda_engine.py | 2560 | 1647 | Eda, EdaData, EdaMore, EdaReport, EdaStack, EdaStd, EdaTables |
| meridian/model/eda/eda_outcome.py | 412 | 37 | EdaMore |
| meridian/model/eda/eda_spec.py | 154 | 118 | Eda, EdaStd, OldFiles |
| meridian/model/eda/meridian_eda.py | 2289 | 1097 | EdaCharts, EdaReport, EdaTables |
| meridian/model/eda/sampling_eda_engine.py | 137 | 68 | EdaMore |
| meridian/model/equations.py | 469 | 423 | Mmm, Options, Sampler |
| meridian/model/knots.py | 876 | 766 | Aks, BandSolve, Knots, LegacyKnots |
| meridian/model/media.py | 369 | 107 | EdaData, Lookup, Sampler |
| meridian/model/model.py | 1441 | 657 | Announce, Eda, EdaData, Engine, Lifecycle, Review, RunLog, SaveLoad, Thin |
| meridian/model/posterior_sampler.py | 1122 | 826 | Announce, Batching, Lifecycle, RunLog, Sampler |
| meridian/model/prior_distribution.py | 1552 | 1197 | AlphaPrior, Announce, DistEq, DistSerde, LogNormal, Multi, OldFiles, Priors, RunLog |
| meridian/model/prior_sampler.py | 705 | 338 | Announce, Lifecycle, Sampler |
| meridian/model/spec.py | 425 | 212 | Options, RunLog, SpecSerde |
| meridian/model/transformers.py | 241 | 192 | Lookup, Transformers |
| meridian/schema/mmm_proto_generator.py | 71 | 6 | Consumer |
| meridian/schema/model_consumer.py | 133 | 75 | Consumer |
| meridian/schema/processors/budget_optimization_processor.py | 841 | 629 | BudgetProto |
| meridian/schema/processors/marketing_processor.py | 1138 | 912 | MarketingProto |
| meridian/schema/processors/model_fit_processor.py | 367 | 170 | FitProto |
| meridian/schema/processors/model_processor.py | 415 | 360 | Consumer, DatedSpec |
| meridian/schema/processors/reach_frequency_optimization_processor.py | 584 | 419 | ReachProto |
| meridian/schema/serde/distribution.py | 546 | 444 | DistSerde, OldFiles |
| meridian/schema/serde/eda_spec.py | 287 | 216 | OldFiles, Registry |
| meridian/schema/serde/function_registry.py | 143 | 73 | Registry |
| meridian/schema/serde/hyperparameters.py | 329 | 278 | SpecSerde |
| meridian/schema/serde/inference_data.py | 105 | 63 | Archive |
| meridian/schema/serde/legacy_aks.py | 664 | 143 | LegacyKnots |
| meridian/schema/serde/legacy_aks_v1_7_1.py | 792 | 24 | LegacyKnots |
| meridian/schema/serde/marketing_data.py | 1336 | 981 | Currency, DataSerde |
| meridian/schema/serde/meridian_serde.py | 503 | 162 | Archive, Engine, LegacyKnots, OldFiles |
| meridian/schema/utils/date_range_bucketing.py | 117 | 31 | DateBuckets |
| meridian/schema/utils/proto_enum_converter.py | 130 | 102 | SpecSerde |
| meridian/schema/utils/time_record.py | 114 | 80 | DataSerde, DatedSpec, FitProto |
| meridian/templates/formatter.py | 311 | 73 | Currency, Formatter, HealthCard, Page |
| meridian/version.py | 17 | 1 | SaveLoad |
| scenarioplanner/converters/dataframe/budget_opt_converters.py | 381 | 316 | Tables |
| scenarioplanner/converters/dataframe/common.py | 71 | 47 | Tables |
| scenarioplanner/converters/dataframe/constants.py | 137 | 42 | Publish |
| scenarioplanner/converters/dataframe/dataframe_model_converter.py | 70 | 17 | Tables |
| scenarioplanner/converters/dataframe/marketing_analyses_converters.py | 543 | 476 | Tables |
| scenarioplanner/converters/dataframe/rf_opt_converters.py | 314 | 239 | Tables |
| scenarioplanner/converters/mmm.py | 756 | 242 | Tables |
| scenarioplanner/converters/sheets.py | 156 | 93 | Publish |
| scenarioplanner/linkingapi/url_generator.py | 131 | 72 | Publish |
| scenarioplanner/mmm_ui_proto_generator.py | 380 | 222 | UiSpecs |

## 6. What is not modelled

* Not expressible in this model: convergence and quality of MCMC sampling, the random streams of
  TFP/JAX, floating-point rounding and overflow, XLA compilation, memory use, plotting and HTML output.
* Parameters of the model, so that the theorems hold whatever they return: hash functions, protocol
  buffers, natsort, date parsing, the spline fit of the knot selection, the normal quantile function,
  random number generators, the values of draws.
* Not modelled, although expressible: the layout of the report pages of the exploratory data analysis
  (C69 to C73 cover its checks and data, C101 and C102 what the report counts and shows); the layout of the summary pages and charts (C77, C81 to C84, C92, C93 and
  C99 cover the data and the sentences); the kernel processor of `meridian/schema` (C85 to C90 cover specs,
  consumer, model fit, marketing, budget and frequency optimization); authentication with the spreadsheet service; the readers of
  legacy distribution messages.

## 7. Axioms of each theorem

From `#print axioms`, for every theorem named in MANIFEST.json.  P = `propext`, C = `Classical.choice`, Q = `Quot.sound`; theorems without mark depend on all three.

* C01: `Adstock.Props.adstock_is_weighted_lag_sum`, `Adstock.Props.adstock_rejects`
* C02: `Adstock.Props.decay_weights_distribution`, `Adstock.Props.decay_weight_value`, `Adstock.Props.no_adstock_at_zero`
* C03: `Adstock.Props.adstock_causal`, `Adstock.Props.adstock_extra_history`, `Adstock.Props.adstock_leading_zeros`, `Adstock.Props.leading_zeros_matter_below_window`
* C04: `Adstock.Props.adstock_linear`, `Adstock.Props.adstock_mono`, `Adstock.Props.adstock_range`
* C05: `Adstock.Props.hill_shape`, `Adstock.Props.hill_series_shape`, `Adstock.Props.hill_scale`, `Adstock.Props.hill_slope_zero`
* C06: `Adstock.Props.conv_process_eq_tf_process`
* C07: `Transformers.Props.kpi_inverse`, `Transformers.Props.kpi_inverse_training`, `Transformers.Props.kpi_inverse_difference`, `Transformers.Props.media_inverse`, `Transformers.Props.cs_inverse`, `Transformers.Props.cs_inverse_needs_scaling`, `Transformers.Props.kpi_lost_in_empty_geo`
* C08: `Transformers.Props.kpi_standardised`, `Transformers.Props.cs_standardised`, `Transformers.Props.cs_std_zero_iff`, `Transformers.Props.media_scale_correct`
* C09: `Knots.Props.weights_accepted_iff`, `Knots.Props.weights_interpolate`, `Knots.Props.weights_partition_of_unity`
* C10: `Knots.Props.knots_int`, `Knots.Props.knots_default`, `Knots.Props.knots_list`, `Knots.Props.repeated_knots_inconsistent`
* C11: `GridSearch.Props.fixed_budget_respected`, `GridSearch.Props.fixed_budget_or_lower_bounds`, `Optimizer.Props.fixed_budget_pipeline`, `Optimizer.Props.optimized_total_can_exceed_budget`, `Optimizer.Props.concave_spends`, `Optimizer.Props.fixed_budget_spent_in_full`, `Optimizer.Props.budget_left_unspent`
* C12: `GridSearch.Props.spend_is_grid_value`, `GridSearch.Props.spend_within_bounds`, `Optimizer.Props.fixed_budget_pipeline`
* C13: `GridSearch.Props.search_terminates`, `GridSearch.Props.fixed_budget_stops`, `Optimizer.Props.pipeline_never_fails`
* C14: `GridSearch.Props.greedy_optimal`, `Optimizer.Props.fixed_budget_optimal`
* C15: `GridSearch.Props.target_mroi_met`, `GridSearch.Props.target_roi_last_purchase`, `GridSearch.Props.target_roi_not_guaranteed`
* C16: `Optimizer.Props.bounds_correct`, `Optimizer.Props.constraints_accepted_iff`, `Optimizer.Props.pct_of_spend_accepted_iff`, `Optimizer.Props.historical_shares`, `Optimizer.Props.omitted_constraints`, `Optimizer.Props.negative_percentage_accepted`
* C17: `Optimizer.Props.round_factor_step`, `Optimizer.Props.round_factor_accepts`, `Optimizer.Props.gtol_guarantee_fails`
* C18: `Optimizer.Props.created_grid_columns`
* C19: `Optimizer.Props.trim_keeps_range`
* C20: `GridReuse.Props.grid_used_iff`, `GridReuse.Props.other_settings_rejected`, `GridReuse.Props.grid_decides`, `GridReuse.Props.own_grid_used`, `GridReuse.Props.own_grid_rejected`, `GridReuse.Props.accepted_grid_fails`, `GridReuse.Props.stale_grid_used`, `GridReuse.Props.verdict_ignores_data`, `GridReuse.Props.verdict_ignores_tolerance`
* C21: `Optimizer.Props.budget_arguments_accepted_iff`, `Optimizer.Props.target_roi_zero_rejected_late` (Q, P)
* C22: `Spend.Props.expand_accepted_iff` (Q, P), `Spend.Props.expand_value`, `Spend.Props.population_split`, `Spend.Props.population_split_unique`, `Spend.Props.flighting_accepted_iff`, `Spend.Props.media_from_units`, `Spend.Props.media_from_spend`, `Spend.Props.rf_from_impressions`, `Spend.Props.rf_from_spend`, `Spend.Props.revenue_spread`, `Spend.Props.zero_frequency_loses_impressions`
* C23: `TimeCoordinates.Props.selection_accepted_iff`, `TimeCoordinates.Props.selection_exact`, `TimeCoordinates.Props.selected_dates_exact`, `TimeCoordinates.Props.open_interval_rejected` (P)
* C24: `TimeCoordinates.Props.period_bounds_accepted_iff`, `TimeCoordinates.Props.periods_contiguous`, `TimeCoordinates.Props.fixed_cadence_tiles`, `TimeCoordinates.Props.calendar_cadence_tiles`, `TimeCoordinates.Props.month_end_gap`, `TimeCoordinates.Props.four_week_overlap`, `TimeCoordinates.Props.fiscal_quarters_rejected`
* C25: `TimeCoordinates.Props.time_axis_accepted_iff`, `TimeCoordinates.Props.repeated_date_accepted` (P), `TimeCoordinates.Props.regular_iff`, `TimeCoordinates.Props.interval_days_correct`
* C26: `InputData.Props.accepted_iff`, `InputData.Props.accepted_geos`, `InputData.Props.accepted_channels`, `InputData.Props.revenue_is_one`, `InputData.Props.transposed_kpi_accepted`, `InputData.Props.spend_of_other_geos_accepted`, `InputData.Props.controls_of_other_dates_accepted`, `InputData.Props.media_of_other_dates_accepted`, `InputData.Props.negative_media_accepted`, `InputData.Props.media_without_spend_accepted`
* C27: `Options.Props.args_aligned`, `Options.Props.args_accepted_iff`, `Options.Props.args_no_missing`, `Options.Props.args_order_irrelevant`, `Options.Props.unknown_name_ignored` (Q, P), `Options.Props.decay_accepted_iff`, `Options.Props.decay_by_channel`, `Options.Props.saturation_by_channel`, `Options.Props.decay_for_all` (Q, P)
* C28: `Builder.Props.accepted_iff`, `Builder.Props.order_irrelevant`, `Builder.Props.aligned`, `Builder.Props.values_kept`, `Builder.Props.build_twice` (Q, P), `Builder.Props.tied_labels_order_dependent`, `Builder.Props.rejected_component_kept`, `Builder.Props.rejected_component_used`
* C29: `Spend.Props.allocation_proportional`, `Spend.Props.allocation_exists_iff`, `Spend.Props.allocation_nonneg`, `Spend.Props.aggregate_is_sum`, `Spend.Props.aggregate_totals`, `Spend.Props.aggregated_spend_is_sum`, `Spend.Props.aggregated_spend_by_time`, `Spend.Props.aggregated_spend_new_periods`, `Spend.Props.aggregated_spend_rows`, `Spend.Props.total_spend_entries`, `Spend.Props.no_units_no_allocation`, `Spend.Props.mixed_spend_has_no_total`
* C30: `Sampler.Props.roi_prior_media`, `Sampler.Props.roi_prior_rf`, `Sampler.Props.mroi_prior_media`, `Sampler.Props.mroi_prior_rf`, `Sampler.Props.contribution_prior_media`, `Sampler.Props.contribution_prior_rf`, `Sampler.Props.contribution_prior_organicMedia`, `Sampler.Props.contribution_prior_organicRf`, `Sampler.Props.contribution_prior_nonMedia`, `Sampler.Props.reported_roi_is_prior_draw_media`, `Sampler.Props.reported_roi_is_prior_draw_rf`, `Sampler.Props.reported_mroi_is_prior_draw_media`, `Sampler.Props.reported_mroi_is_prior_draw_rf`, `Sampler.Props.mroi_prior_ignored_without_saturation`, `Sampler.Props.nonMedia_contribution_population_scaled`
* C31: `Sampler.Props.prior_eq_posterior`, `Sampler.Props.prior_ignores_organic_rf_prior_type`, `Sampler.Props.organic_rf_prior_type_mismatch`, `Sampler.Props.baselines_agree`, `Sampler.Props.baselines_differ`
* C32: `Sampler.Props.likelihood_of_observed`, `Sampler.Props.held_out_kpi_irrelevant`, `Sampler.Props.held_out_kpi_enters_the_scale`
* C33: `Sampler.Props.tau_inserted`, `Sampler.Props.baseline_geo`
* C34: `Batching.Props.batched_draw_by_draw`, `Batching.Props.batch_size_irrelevant`, `Batching.Props.nonpositive_batch_rejected` (P), `Batching.Props.expected_outcome_batched`, `Batching.Props.chain_batches`, `Batching.Props.trace_aligned`, `Batching.Props.reconstruct_draw_by_draw`, `Batching.Props.reconstruct_batch_and_seed_irrelevant`, `Batching.Props.reconstruct_nonpositive_rejected` (Q, P), `Batching.Props.posterior_saved`, `Batching.Props.no_draws_no_deterministic_variables` (P)
* C35: `Mmm.Props.outcome_decomposes`, `Mmm.Props.aggregated_outcome_decomposes`, `Mmm.Props.incremental_is_difference`, `Mmm.Props.incremental_nonmedia_is_difference`, `Mmm.Props.incremental_wrong_at_slope_zero`
* C36: `Selection.Props.geos_accepted_iff`, `Selection.Props.geo_indices_exact`, `Selection.Props.times_accepted_iff`, `Selection.Props.time_indices_exact`, `Selection.Props.aggregate_selected`, `Selection.Props.unaggregated_is_table`, `Selection.Props.aggregate_additive`
* C37: `Labels.Props.xr_geo_labels`, `Labels.Props.xr_time_labels`, `Labels.Props.summary_time_labels`, `Labels.Props.summary_geo_labels`, `Labels.Props.summary_geo_labels_swapped`, `Labels.Props.baseline_time_labels_swapped` (P), `Labels.Props.summary_repeated_geo_refused`
* C38: `Metrics.Props.roi_definition`, `Metrics.Props.roi_by_geo`, `Metrics.Props.marginal_roi_definition`, `Metrics.Props.cpik_definition`, `Metrics.Props.roi_cpik_consistent`, `Metrics.Props.roi_accepted_iff`, `Metrics.Props.roi_accepted_general`, `Metrics.Props.roi_total_spend_mismatch`, `Metrics.Props.summary_total`, `Metrics.Props.summary_roi_times_spend`, `Metrics.Props.summary_cpik_reciprocal`, `Metrics.Props.pct_of_spend_sums`, `Metrics.Props.cpm_times_impressions`, `Metrics.Props.percent_of_contribution`
* C39: `Curves.Props.factors_accepted_iff`, `Curves.Props.curve_accepted_iff`, `Curves.Props.curve_meaning`, `Curves.Props.curve_anchored`, `Curves.Props.curve_monotone`, `Curves.Props.curve_linear_by_reach`, `Curves.Props.curve_spend`
* C40: `Curves.Props.impressions_kept`, `Curves.Props.nanargmax_spec`, `Curves.Props.meanRoi_own_frequency`, `Curves.Props.optimal_freq_accepted_iff`, `Curves.Props.optimal_freq_maximises`
* C41: `Options.Props.baseline_follows_rule`, `Options.Props.baseline_accepted_iff`
* C42: `Options.Props.spec_accepted_iff`, `Options.Props.effective_prior_types` (P), `Options.Props.max_lag_unchecked` (none), `Options.Props.negative_knots_accepted` (none)
* C43: `SpecSerde.Props.converter_round_trip`, `SpecSerde.Props.converters_bijective` (P), `SpecSerde.Props.round_trip_equivalent`, `SpecSerde.Props.one_location_becomes_number`, `SpecSerde.Props.knot_at_zero_not_loadable`, `SpecSerde.Props.one_location_meaning_changed`, `SpecSerde.Props.numpy_geo_lost`, `SpecSerde.Props.odd_baseline_not_loadable`, `SpecSerde.Props.unspecified_defaults` (P), `SpecSerde.Props.same_choice_same_decay`
* C44: `Registry.Props.accepted_iff`, `Registry.Props.extra_functions_irrelevant`, `Registry.Props.saved_accepted_iff`, `Registry.Props.changed_source_rejected`, `Registry.Props.only_source_compared`, `Registry.Props.hashes_never_updated` (P), `Registry.Props.changed_function_accepted` (none), `Registry.Props.aggregation_round_trip`, `Registry.Props.unregistered_not_saved` (Q, P), `Registry.Props.loaded_iff`, `Registry.Props.replaced_function_not_loadable`
* C45: `DateBuckets.Props.buckets_accepted_iff`, `DateBuckets.Props.buckets_exact`, `DateBuckets.Props.buckets_disjoint`, `DateBuckets.Props.buckets_one_calendar_bucket`, `DateBuckets.Props.month_number_merges_years` (P)
* C46: `Stabilize.Props.jax_constant_roi`, `Stabilize.Props.tf_constant_roi`, `Stabilize.Props.zero_spend_zero_outcome`, `Stabilize.Props.other_channels_unchanged`, `Stabilize.Props.no_rows_no_outcome`, `Stabilize.Props.backends_agree_iff`, `Stabilize.Props.proportional_unchanged`, `Stabilize.Props.negative_roi_differs`, `Stabilize.Props.negative_roi_witness`, `Stabilize.Props.no_rf_overwrites_media`
* C47: `BandSolve.Props.bandsolve_correct`, `BandSolve.Props.bandsolve_accepted_iff`, `BandSolve.Props.bandWeight_is_difference_penalty`, `BandSolve.Props.mat2rot_stores`, `BandSolve.Props.mat2rot_defined_iff`, `BandSolve.Props.ridge_solver_minimises`, `BandSolve.Props.ridge_solver_fails_on_flat_data`, `BandSolve.Props.ridge_solver_needs_bandwidth`
* C48: `Aks.Props.selection_respects_request`, `Aks.Props.selection_minimises_aic`, `Aks.Props.selection_request_consistent`, `Aks.Props.request_refused_iff`
* C49: `Sampler.Props.likelihood_mean_is_expected_outcome`
* C50: `Options.Props.shapes_accepted_iff`
* C51: `DataFrame.Props.row_order_irrelevant`, `DataFrame.Props.cell_kept`, `DataFrame.Props.cell_from_frame`, `DataFrame.Props.revenue_is_one`, `DataFrame.Props.population_mean`, `DataFrame.Props.population_values`, `DataFrame.Props.loaded_columns`, `DataFrame.Props.paid_columns_needed`, `DataFrame.Props.unpaired_columns_ignored`, `DataFrame.Props.empty_column_dropped`, `DataFrame.Props.lagged_revenue_rejected`
* C52: `TensorProto.Props.numbers_round_trip`, `TensorProto.Props.size_bits` (P), `TensorProto.Props.written_iff` (Q, P), `TensorProto.Props.strings_become_bytes` (Q, P)
* C53: `DistSerde.Props.toProto_iff` (Q, P), `DistSerde.Props.value_round_trip`, `DistSerde.Props.priors_round_trip`, `DistSerde.Props.large_int_not_saved` (Q, P), `DistSerde.Props.unregistered_not_saved` (Q, P), `DistSerde.Props.default_in_dict_lost`, `DistSerde.Props.tuple_not_saved` (P)
* C54: `Equation.Props.expected_outcome_equation`, `Equation.Props.expected_kpi_equation`, `Equation.Props.expected_revenue_equation`
* C55: `LogNormal.Props.mean_std`, `LogNormal.Props.range_accepted_iff`, `LogNormal.Props.range_mass`, `LogNormal.Props.total_contribution`, `LogNormal.Props.exists_quantile`
* C56: `Priors.Props.support_accepted_iff` (Q, P), `Priors.Props.broadcast_accepted_iff`, `Priors.Props.broadcast_by_channel`, `Priors.Props.broadcast_total`, `Priors.Props.national_no_differences`, `Priors.Props.knots_one_each`, `Priors.Props.one_knot_any_length`, `Priors.Props.sigma_by_geo`, `Priors.Props.mroi_accepted_iff` (P), `Priors.Props.roi_without_revenue`, `Priors.Props.roi_with_revenue` (P), `Priors.Props.negative_accepted_iff` (Q, P), `Priors.Props.context_accepted_iff` (P), `Priors.Props.negative_prior_accepted_by_default` (Q, P), `Priors.Props.rf_judged_by_media_prior_type` (Q, P)
* C57: `Identify.Props.accepted_iff`, `Identify.Props.checkGeo_spec`, `Identify.Props.checkTime_spec`, `Identify.Props.checkSpend_spec` (Q, P), `Identify.Props.equal_in_all_geos_refused`, `Identify.Props.equal_at_all_times_refused`, `Identify.Props.differing_not_nearlyConstant`
* C58: `Multi.Props.accepted_iff`, `Multi.Props.batch_shape`, `Multi.Props.elementwise`, `Multi.Props.moments`, `Multi.Props.sample_by_distribution`, `Multi.Props.equal_distributions_equal_draws`, `Multi.Props.not_independent`
* C59: `DistEq.Props.equal_iff`, `DistEq.Props.equal_self`, `DistEq.Props.different_class`, `DistEq.Props.different_number`, `DistEq.Props.not_symmetric`, `DistEq.Props.batch_equals_scalar`, `DistEq.Props.nan_not_equal`, `DistEq.Props.sizes_raise`
* C60: `Thin.Props.indices_regular`, `Thin.Props.thin_result`, `Thin.Props.thin_refused`, `Thin.Props.equally_likely`, `Thin.Props.restore_after_thin`, `Thin.Props.history_of_one_fit`, `Thin.Props.restore_raises_if_all_kept`, `Thin.Props.restore_undoes_refit`, `Thin.Props.second_fit_not_preserved`
* C61: `SaveLoad.Props.load_after_save`, `SaveLoad.Props.load_saved`, `SaveLoad.Props.loaded_valid`, `SaveLoad.Props.crash_states`, `SaveLoad.Props.unsupported_refused`, `SaveLoad.Props.crash_loses_saved_model`, `SaveLoad.Props.failed_save_loses_saved_model`, `SaveLoad.Props.unsupported_empties_file`, `SaveLoad.Props.bare_name_refused`, `SaveLoad.Props.reported_success_loads`, `SaveLoad.Props.saved_in_directory`, `SaveLoad.Props.review_lost`, `SaveLoad.Props.resaved_old_model_changes`
* C62: `Interval.Props.accepted_iff`, `Interval.Props.result_finite`, `Interval.Props.median_is_extra`, `Interval.Props.mean_is_average`, `Interval.Props.interval_ordered`, `Interval.Props.nested`, `Interval.Props.tails_small`, `Interval.Props.tails_large`, `Interval.Props.coverage`, `Interval.Props.exact_ranks`, `Interval.Props.linear_between`, `Interval.Props.median_splits`, `Interval.Props.full_level`, `Interval.Props.order_irrelevant`, `Interval.Props.nan_spreads`, `Interval.Props.rescale`, `Interval.Props.negative_level_swaps`, `Interval.Props.mean_outside_interval`
* C63: `Accuracy.Props.metrics_of_gaps`, `Accuracy.Props.rsq_le_one`, `Accuracy.Props.wmape_weighted`, `Accuracy.Props.accuracy_table`, `Accuracy.Props.expected_mean`, `Accuracy.Props.one_date_decides_split`, `Accuracy.Props.other_form_refused`, `Accuracy.Props.other_form_single`, `Accuracy.Props.split_is_wrong`
* C64: `FitData.Props.accepted`, `FitData.Props.reported_unsplit`, `FitData.Props.reported_split`, `FitData.Props.reported_split_baseline`, `FitData.Props.each_observation`, `FitData.Props.all_data_unsplit`, `FitData.Props.actual_totals`, `FitData.Props.mixed_blank`, `FitData.Props.mixed_blank_witness`, `FitData.Props.plotted_line`, `FitData.Props.plotted_geo`, `FitData.Props.plotted_band_wrong`, `FitData.Props.useKpi_iff` (P), `FitData.Props.new_shows`, `FitData.Props.update_shows`, `FitData.Props.update_forgets_kpi`, `FitData.Props.update_forgets_kpi_witness`
* C65: `Rhat.Props.masked_names` (Q, P), `Rhat.Props.masked_exactly`, `Rhat.Props.summary_describes`, `Rhat.Props.summary_refused_iff`, `Rhat.Props.linear_never_listed`, `Rhat.Props.masked_dilute`, `Rhat.Props.nothing_known`, `Rhat.Props.check_spec`, `Rhat.Props.first_unknown`, `Rhat.Props.fixed_first_parameter_fails`
* C66: `Review.Props.within_iff`, `Review.Props.within_no_channels`, `Review.Props.config_valid_iff` (Q, P), `Review.Props.baseline_cases`, `Review.Props.ppp_pass_iff`, `Review.Props.ppp_outlier_fails`, `Review.Props.ppp_centre_passes`, `Review.Props.gof_review_iff`, `Review.Props.gof_nan_passes` (P), `Review.Props.roi_one_each`, `Review.Props.roi_channel_case`, `Review.Props.roi_undefined`, `Review.Props.roi_pass_iff`, `Review.Props.shift_found`, `Review.Props.shift_only_if`, `Review.Props.infinite_prior_mean_always_shifts`, `Review.Props.unknown_prior_never_shifts`, `Review.Props.shift_pass_iff`, `Review.Props.plaus_cases`, `Review.Props.spendShare_spec`, `Review.Props.not_converged_stops`, `Review.Props.review_results`, `Review.Props.not_fully_converged_fails`, `Review.Props.default_thresholds`, `Review.Props.default_review_iff`, `Review.Props.default_review_ids`, `Review.Props.mixed_priors_raise`, `Review.Props.mixed_priors_witness`, `Review.Props.battery_needs_required`, `Review.Props.default_injectable`, `Review.Props.custom_battery_not_injectable`
* C67: `Health.Props.baseline_score`, `Health.Props.baseline_antitone`, `Health.Props.gof_score`, `Health.Props.fit_range`, `Health.Props.fit_strictMono`, `Health.Props.ratio_score`, `Health.Props.passing_strictMono`, `Health.Props.health_range`, `Health.Props.health_without_roi`, `Health.Props.health_default_roi`, `Health.Props.health_custom_roi`, `Health.Props.ppp_boundary`, `Health.Props.ppp_score`, `Health.Props.convergence_irrelevant`, `Health.Props.nan_fit_nan_score`, `Health.Props.inverted_thresholds`, `Health.Props.equal_thresholds`
* C68: `DataSerde.Props.save_then_load`, `DataSerde.Props.unchanged_iff`, `DataSerde.Props.one_period_not_saved`, `DataSerde.Props.total_spend_interval`, `DataSerde.Props.reach_fraction_lost`, `DataSerde.Props.short_dates_not_loaded`, `DataSerde.Props.other_dates_lost`, `DataSerde.Props.unnamed_geo_lost`, `DataSerde.Props.order_of_geos_changed`, `DataSerde.Props.empty_currency_lost`
* C69: `Eda.Props.pair_reported_iff`, `Eda.Props.pair_reported_once`, `Eda.Props.threshold_one_reports_nothing`, `Eda.Props.same_up_to_units_iff`, `Eda.Props.pairs_unit_free`, `Eda.Props.vif_reported_iff`, `Eda.Props.redundant_iff`, `Eda.Props.vif_at_least_one`, `Eda.Props.pair_inflates`, `Eda.Props.inflated_monotone`, `Eda.Props.factors_see_more`, `Eda.Props.kpi_passes_iff`, `Eda.Props.single_cell_fails`, `Eda.Props.constant_kpi_may_pass`, `Eda.Props.varying_kpi_may_fail`, `Eda.Props.sampling_allowed_iff`, `Eda.Props.geo_findings_do_not_block`, `Eda.Props.pair_attention_iff`, `Eda.Props.vif_attention_iff`, `Eda.Props.guardrail_names`, `Eda.Props.model_refused_iff`, `Eda.Props.constant_kpi_never_sampled`, `Eda.Props.small_sampled`
* C70: `EdaStd.Props.outliers_reported`, `EdaStd.Props.outliers_sorted`, `EdaStd.Props.stds_reported`, `EdaStd.Props.half_kept`, `EdaStd.Props.std_without_exists`, `EdaStd.Props.others_are_outliers`, `EdaStd.Props.mostly_constant_std`, `EdaStd.Props.outliers_rescaled`, `EdaStd.Props.findings_exact`, `EdaStd.Props.artifacts_exact`, `EdaStd.Props.geo_check_refused`, `EdaStd.Props.sparse_reported`
* C71: `EdaStd.Props.inconsistencies_reported` (Q, P), `EdaStd.Props.cost_outliers_reported`, `EdaStd.Props.cost_findings_exact`, `EdaStd.Props.cost_level`, `EdaStd.Props.currency_irrelevant`
* C72: `EdaData.Props.national_frequency`, `EdaData.Props.national_frequency_one`, `EdaData.Props.national_total`, `EdaData.Props.scaled_median_one`, `EdaData.Props.units_free`, `EdaData.Props.national_variable`, `EdaData.Props.national_kpi`, `EdaData.Props.same_names`, `EdaData.Props.national_contents`, `EdaData.Props.geo_contents`, `EdaData.Props.media_per_head`, `EdaData.Props.impressions_per_head`, `EdaData.Props.national_media_sum`, `EdaData.Props.national_rf_sum`, `EdaData.Props.national_same`, `EdaData.Props.geo_defined_iff`, `EdaData.Props.national_defined_iff`, `EdaData.Props.silent_rf_stops_sampling`, `EdaData.Props.silent_media_no_exception`, `EdaData.Props.silent_channel_accepted_not_sampled`
* C73: `EdaMore.Props.spearman_none_iff`, `EdaMore.Props.spearman_bounds`, `EdaMore.Props.spearman_order_only`, `EdaMore.Props.spearman_symm`, `EdaMore.Props.spearman_reverse`, `EdaMore.Props.spearman_one_iff`, `EdaMore.Props.spearman_minus_one_iff`, `EdaMore.Props.spearman_formula`, `EdaMore.Props.rsq_shares`, `EdaMore.Props.rsq_bounds`, `EdaMore.Props.rsq_sum`, `EdaMore.Props.collinearity_entries`, `EdaMore.Props.single_geo_refused`, `EdaMore.Props.adjusted_meaning`, `EdaMore.Props.adjusted_unit_free`, `EdaMore.Props.collinearity_unit_matters`, `EdaMore.Props.constant_over_time_not_nan`, `EdaMore.Props.ratio_meaning`, `EdaMore.Props.negative_baseline_bounds`, `EdaMore.Props.contributions_meaning`, `EdaMore.Props.total_meaning`
* C74: `Weekly.Props.interp_meaning`, `Weekly.Props.interp_error`, `Weekly.Props.interp_concave`, `Weekly.Props.interp_linear`, `Weekly.Props.period_is_sum_of_weeks`, `Weekly.Props.periods_add`, `Weekly.Props.same_spend_levels`, `Weekly.Props.scenario_outcome`, `Weekly.Props.proportional_outcome`, `Weekly.Props.no_grid_iff`, `Weekly.Props.levels_covered`, `Weekly.Props.historical_budget_covered`, `Weekly.Props.outcome_without_spend`, `Weekly.Props.outcome_cut_off`, `Weekly.Props.refused_within_limits`, `Weekly.Props.refused_because_of_step`
* C75: `Weekly.Props.limits_accepted_iff`, `Weekly.Props.multipliers_meaning`, `Weekly.Props.multipliers_ends`, `Weekly.Props.cell_meaning`, `Weekly.Props.cell_zero`, `Weekly.Props.outcomes_any_batch`, `Weekly.Props.create_meaning`, `Weekly.Props.combine_accepts_iff`, `Weekly.Props.combine_result`, `Weekly.Props.combine_period`, `Weekly.Props.combine_any_order`, `Weekly.Props.negative_multipliers`, `Weekly.Props.single_grid_unchecked`
* C76: `Results.Props.grid_cell_own_multiplier`, `Results.Props.grid_outcome`, `Results.Props.reported_outcome`, `Results.Props.report_matches_search`, `Results.Props.curve_through_points`, `Results.Props.history_reported`, `Results.Props.no_history_no_outcome`, `Results.Props.totals_consistent`, `Results.Props.roi_reported`, `Results.Props.mroi_reported`, `Results.Props.rf_mroi_is_roi`, `Results.Props.impressions_reported`, `Results.Props.effectiveness_reported`, `Results.Props.cpik_reported`, `Results.Props.roi_warning_iff`, `Results.Props.met_target_not_warned`, `Results.Props.mroi_warning_iff`, `Results.Props.no_target_no_warning`, `Results.Props.unpaid_channel_reported_zero`
* C77: `ResultCharts.Props.changes_table`, `ResultCharts.Props.changes_add_up`, `ResultCharts.Props.unknown_change_left_out`, `ResultCharts.Props.waterfall`, `ResultCharts.Props.channel_called_optimized`, `ResultCharts.Props.margin`, `ResultCharts.Props.axis_shows_bars`, `ResultCharts.Props.axis_cuts_off`, `ResultCharts.Props.top_channels`, `ResultCharts.Props.negative_number_accepted` (Q, P), `ResultCharts.Props.curve_points`, `ResultCharts.Props.constraint_shown`, `ResultCharts.Props.points_drawn`, `ResultCharts.Props.allocation_table`, `ResultCharts.Props.percentages_add_up`, `ResultCharts.Props.times_selected`, `ResultCharts.Props.model_times_selected`, `ResultCharts.Props.other_form_selects_nothing` (P)
* C78: `Formatter.Props.digits_read`, `Formatter.Props.compact_read`, `Formatter.Props.amount_read`, `Formatter.Props.percent_read`, `Formatter.Props.share_read`, `Formatter.Props.fixed_read`, `Formatter.Props.change_signs`, `Formatter.Props.amounts_shown`, `Formatter.Props.performance_read`, `Formatter.Props.thousand_thousands`, `Formatter.Props.negative_zero`, `Formatter.Props.negative_percentage`, `Formatter.Props.shown_change_differs`, `Formatter.Props.cpik_increase_unsigned`
* C79: `Summary.Props.summary_accepted_iff`, `Summary.Props.summary_variables`, `Summary.Props.summary_outcome`, `Summary.Props.summary_spend`, `Summary.Props.summary_roi_cpik`, `Summary.Props.summary_effectiveness`, `Summary.Props.summary_mroi`, `Summary.Props.summary_contribution`, `Summary.Props.baseline_values`, `Summary.Props.contributions_complete`, `Summary.Props.optimal_frequency_without_effect`, `Summary.Props.organic_frequency_rejected`
* C80: `FreqReport.Props.freq_accepted_iff`, `FreqReport.Props.freq_grid_values`, `FreqReport.Props.freq_optimum`, `FreqReport.Props.freq_optimized`, `FreqReport.Props.optimized_roi_is_maximum`, `FreqReport.Props.default_grid`, `FreqReport.Props.optimized_level_ignored`, `FreqReport.Props.prior_only_rejected`, `FreqReport.Props.low_frequency_rejected`
* C81: `MediaCurves.Props.decay_accepted_iff`, `MediaCurves.Props.decay_rows`, `MediaCurves.Props.decay_order`, `MediaCurves.Props.decay_matches_model`, `MediaCurves.Props.decay_shape`, `MediaCurves.Props.hill_accepted_iff`, `MediaCurves.Props.hill_rows`, `MediaCurves.Props.hill_curve_shape`, `MediaCurves.Props.hist_rows`, `MediaCurves.Props.dataframe_rows`, `MediaCurves.Props.last_lag_missing`, `MediaCurves.Props.no_carryover_shown`, `MediaCurves.Props.binomial_undefined`, `MediaCurves.Props.curve_for_linear`, `MediaCurves.Props.plot_without_prior_drops_histogram`
* C82: `Views.Props.settings_current` (Q, P), `Views.Props.get_current` (Q, P), `Views.Props.get_some_time` (Q, P), `Views.Props.update_ignored` (Q, P), `Views.Props.stale_after_update`, `Views.Props.title_not_intervals`, `Views.Props.title_cuts`, `Views.Props.evicted` (P), `Views.Props.rf_current` (Q, P), `Views.Props.by_reach_ignored` (none), `Views.Props.num_displayed`, `Views.Props.top_channels`, `Views.Props.title_counts_all`
* C83: `Contrib.Props.contribution_accepted_iff` (Q, P), `Contrib.Props.contribution_rows`, `Contrib.Props.contribution_meaning`, `Contrib.Props.baseline_agrees`, `Contrib.Props.waterfall`, `Contrib.Props.text_right`, `Contrib.Props.ranks`, `Contrib.Props.quarterly`, `Contrib.Props.area_floor`, `Contrib.Props.spend_rows`, `Contrib.Props.scaled_roi`, `Contrib.Props.scaled_roi_negative`, `Contrib.Props.negative_roi_reversed`, `Contrib.Props.bubble_channels`, `Contrib.Props.equal_axes_cut`, `Contrib.Props.bar_rows`, `Contrib.Props.selection_incomplete`, `Contrib.Props.pie_rows`, `Contrib.Props.upper_collides`, `Contrib.Props.zero_total`, `Contrib.Props.stale_times_mixed`
* C84: `SummaryTable.Props.table_rows`, `SummaryTable.Props.table_cells`, `SummaryTable.Props.interval_order`, `SummaryTable.Props.columns_reported`, `SummaryTable.Props.returns_shown_equal`, `SummaryTable.Props.nan_hides_decimals`, `SummaryTable.Props.spend_without_currency`, `SummaryTable.Props.sign_after_currency`
* C85: `DatedSpec.Props.spec_accepted_iff`, `DatedSpec.Props.optimization_accepted_iff`, `DatedSpec.Props.resolves_iff`, `DatedSpec.Props.selection_half_open`, `DatedSpec.Props.flags_half_open`, `DatedSpec.Props.collapse_is_spec`, `DatedSpec.Props.intervals_tile`, `DatedSpec.Props.empty_range_never_resolves`, `DatedSpec.Props.month_end_refused`, `DatedSpec.Props.month_intervals_do_not_tile`
* C86: `Consumer.Props.groups_exact` (Q, P), `Consumer.Props.groups_partition` (Q, P), `Consumer.Props.groups_order`, `Consumer.Props.params_exact` (Q, P), `Consumer.Props.proto_exact` (Q, P), `Consumer.Props.order_between_classes` (Q, P), `Consumer.Props.duplicate_only_with_specs`, `Consumer.Props.derived_spec_refused` (P), `Consumer.Props.not_fitted_never_said` (P)
* C87: `FitProto.Props.level_accepted_iff`, `FitProto.Props.first_spec_only`, `FitProto.Props.results_named`, `FitProto.Props.predictions_exact`, `FitProto.Props.performance_exact`, `FitProto.Props.produced_iff`, `FitProto.Props.unsplit_fails_with_holdout`, `FitProto.Props.partial_holdout_is_nan`, `FitProto.Props.actual_not_split`
* C88: `MarketingProto.Props.accepted_iff`, `MarketingProto.Props.incremental_accepted_iff` (Q, P), `MarketingProto.Props.output_by_spec`, `MarketingProto.Props.axis_exact`, `MarketingProto.Props.media_intervals`, `MarketingProto.Props.media_exact`, `MarketingProto.Props.spend_and_curve_exact`, `MarketingProto.Props.nonmedia_exact`, `MarketingProto.Props.incremental_exact`, `MarketingProto.Props.produced_iff`, `MarketingProto.Props.incremental_non_paid_ignored`, `MarketingProto.Props.media_times_ignored`, `MarketingProto.Props.total_is_non_media`, `MarketingProto.Props.baseline_ignores_new_data`, `MarketingProto.Props.baseline_of_other_period`, `MarketingProto.Props.baseline_in_revenue_only`, `MarketingProto.Props.cost_and_return_both`
* C89: `BudgetProto.Props.constraint_accepted_iff`, `BudgetProto.Props.scenario_accepted_iff`, `BudgetProto.Props.spec_accepted_iff`, `BudgetProto.Props.execute_iff`, `BudgetProto.Props.ratios_iff` (Q, P), `BudgetProto.Props.constraints_accepted_iff` (Q, P), `BudgetProto.Props.default_ratios` (Q, P), `BudgetProto.Props.message_exact`, `BudgetProto.Props.constraints_bracket_spend`, `BudgetProto.Props.outcome_labels`, `BudgetProto.Props.cells_aligned` (Q, P), `BudgetProto.Props.message_produced_iff`, `BudgetProto.Props.fresh_faithful`, `BudgetProto.Props.cells_misaligned`, `BudgetProto.Props.zero_accepted_never_run`, `BudgetProto.Props.reported_budget_not_historical`, `BudgetProto.Props.label_mismatch`
* C90: `ReachProto.Props.spec_accepted_iff`, `ReachProto.Props.execute_iff`, `ReachProto.Props.grid_tenths`, `ReachProto.Props.message_exact`, `ReachProto.Props.optimum_in_grid`, `ReachProto.Props.impressions_kept`, `ReachProto.Props.outcome_labels`, `ReachProto.Props.message_produced_iff`, `ReachProto.Props.share_in_percent`, `ReachProto.Props.reach_ignores_dates`, `ReachProto.Props.curves_ignore_range`, `ReachProto.Props.zero_minimum_never_runs`, `ReachProto.Props.zero_maximum_ignored`, `ReachProto.Props.minimum_above_model_never_runs`, `ReachProto.Props.labels_disagree`
* C91: `NewData.Props.constructed_iff` (Q, P), `NewData.Props.constructed_documented` (Q, P), `NewData.Props.unmodified_iff`, `NewData.Props.accepted_iff` (Q, P), `NewData.Props.accepted_iff_used`, `NewData.Props.accepted_fixed_iff`, `NewData.Props.values_used`, `NewData.Props.history_used`, `NewData.Props.modified_consistent`, `NewData.Props.validated_again`, `NewData.Props.counterfactual_accepted_iff`, `NewData.Props.indices_exact`, `NewData.Props.mask_exact`, `NewData.Props.ignored_variable_refused` (Q, P), `NewData.Props.time_count_unchecked` (Q, P), `NewData.Props.time_count_index_error` (Q, P), `NewData.Props.one_date_changes_all` (Q, P)
* C92: `Tables.Props.converts_iff`, `Tables.Props.names_exact`, `Tables.Props.grid_name`, `Tables.Props.diagnostics_exact`, `Tables.Props.fit_exact`, `Tables.Props.outcome_exact`, `Tables.Props.spend_exact`, `Tables.Props.roi_exact`, `Tables.Props.budget_grid_exact`, `Tables.Props.budget_specs_exact`, `Tables.Props.budget_results_exact`, `Tables.Props.curves_exact`, `Tables.Props.reach_grid_exact`, `Tables.Props.reach_specs_exact`, `Tables.Props.reach_results_exact`, `Tables.Props.shares_sum`, `Tables.Props.implicit_constraints_omit_reach`, `Tables.Props.missing_outcome_refused`, `Tables.Props.zero_total_fails`, `Tables.Props.similar_names_refused`, `Tables.Props.all_channels_second` (Q, P), `Tables.Props.needs_all`, `Tables.Props.needs_target`
* C93: `UiSpecs.Props.admission_iff`, `UiSpecs.Props.accepted_iff`, `UiSpecs.Props.blocks_exact`, `UiSpecs.Props.paired`, `UiSpecs.Props.groups_distinct`, `UiSpecs.Props.parts_resolve`, `UiSpecs.Props.kpi_not_passed_on`, `UiSpecs.Props.grid_names_collide`, `UiSpecs.Props.ignored_frequency_refused`, `UiSpecs.Props.monthly_parts_unresolved`, `UiSpecs.Props.new_data_parts_unresolved`, `UiSpecs.Props.marketing_tags_collide`
* C94: `NdArray.Props.accepted_iff`, `NdArray.Props.arrays_exact`, `NdArray.Props.order_irrelevant`, `NdArray.Props.labels_first`, `NdArray.Props.organic_never_builds`, `NdArray.Props.flat_national_refused`, `NdArray.Props.single_geo_refused`
* C95: `Calibration.Props.read_iff` (Q, P), `Calibration.Props.interval_narrowest`, `Calibration.Props.highVariance_accepted`, `Calibration.Props.highVariance_exact`, `Calibration.Props.highVariance_units`, `Calibration.Props.highVariance_order`, `Calibration.Props.implausible_exact`, `Calibration.Props.paid_channels`, `Calibration.Props.bias_exact`, `Calibration.Props.bias_matrix`, `Calibration.Props.bias_maximum`, `Calibration.Props.bias_units`, `Calibration.Props.bias_no_controls`, `Calibration.Props.zero_median_passes`, `Calibration.Props.wide_interval_passes`, `Calibration.Props.reported_defaults`, `Calibration.Props.reported_bound_contradicts`, `Calibration.Props.constant_channel_passes`, `Calibration.Props.documented_direction_reversed`
* C96: `XrLoad.Props.documented_names`, `XrLoad.Props.given_accepted`, `XrLoad.Props.given_values`, `XrLoad.Props.split_accepted`, `XrLoad.Props.split_values`, `XrLoad.Props.split_no_gap`, `XrLoad.Props.one_missing_drops_date`, `XrLoad.Props.national_expanded`, `XrLoad.Props.national_values`, `XrLoad.Props.mapping_values`, `XrLoad.Props.mapping_refused`, `XrLoad.Props.flat_spend_refused`
* C97: `Lookup.Props.names_accepted_iff`, `Lookup.Props.scaling_factor`, `Lookup.Props.factor_undoes_scaling`, `Lookup.Props.factor_refused`, `Lookup.Props.control_shadows_channel`, `Lookup.Props.parameters_one_decay`, `Lookup.Props.parameters_by_channel`, `Lookup.Props.parameters_only_channels`, `Lookup.Props.tensor_right`, `Lookup.Props.label_agrees`, `Lookup.Props.dims_right` (P), `Lookup.Props.dims_labelled`, `Lookup.Props.dims_once` (none), `Lookup.Props.top_geos`, `Lookup.Props.negative_top_geos`
* C98: `Lifecycle.Props.call_writes`, `Lifecycle.Props.call_reproducible`, `Lifecycle.Props.success_independent` (Q, P), `Lifecycle.Props.failure_changes_nothing` (P), `Lifecycle.Props.failed_calls_change_nothing` (P), `Lifecycle.Props.interrupted` (Q, P), `Lifecycle.Props.samples_of_last_fit`, `Lifecycle.Props.groups_apart`, `Lifecycle.Props.review_current` (P), `Lifecycle.Props.refit_keeps_old_review`, `Lifecycle.Props.thinning_misaligns`, `Lifecycle.Props.seed_accepted_iff` (Q, P), `Lifecycle.Props.seed_meaning` (P), `Lifecycle.Props.batch_seeds_distinct` (Q, P), `Lifecycle.Props.prior_seeds_distinct` (Q, P), `Lifecycle.Props.next_seed_from_previous` (Q, P)
* C99: `Page.Props.page_accepted_iff`, `Page.Props.page_period`, `Page.Props.shown_end_regular`, `Page.Props.shown_end_months`, `Page.Props.charts_granularity`, `Page.Props.granularity_ignores_cadence` (none), `Page.Props.accuracy_rows`, `Page.Props.cells_read`, `Page.Props.small_error_shown`, `Page.Props.insights_best`, `Page.Props.insights_ok_iff`, `Page.Props.two_largest_named`, `Page.Props.single_named`, `Page.Props.infinite_roi_named`, `Page.Props.negative_cost_named`, `Page.Props.names_alike`, `Page.Props.frequency_named`, `Page.Props.frequency_ok_iff`, `Page.Props.tenths_exact`
* C100: `ArrayOps.Props.mask_same`, `ArrayOps.Props.mask_exact`, `ArrayOps.Props.mask_differs`, `ArrayOps.Props.split_same`, `ArrayOps.Props.split_parts` (Q, P), `ArrayOps.Props.split_unchecked` (Q, P), `ArrayOps.Props.unique_exact` (Q, P), `ArrayOps.Props.unique_order_differs` (none), `ArrayOps.Props.bad_columns_same`, `ArrayOps.Props.gather_same`, `ArrayOps.Props.gather_out_of_range` (Q, P), `ArrayOps.Props.arange_same`, `ArrayOps.Props.lags`, `ArrayOps.Props.arange_backwards`
* C101: `EdaReport.Props.finding_exact`, `EdaReport.Props.summary_cards` (none), `EdaReport.Props.summary_exact`, `EdaReport.Props.report_made`, `EdaReport.Props.fails_of_data`, `EdaReport.Props.reported_fail_refused`, `EdaReport.Props.no_fail_sampled`, `EdaReport.Props.pair_not_counted`, `EdaReport.Props.not_counted`, `EdaReport.Props.partners_exact` (Q, P), `EdaReport.Props.attention_callout` (Q, P), `EdaReport.Props.error_callout` (Q, P), `EdaReport.Props.attention_partners`, `EdaReport.Props.partner_not_named` (Q, P), `EdaReport.Props.saved` (P), `EdaReport.Props.failed_report_empties_file` (P)
* C102: `EdaCharts.Props.largest_shown`, `EdaCharts.Props.inconsistent_shown`, `EdaCharts.Props.low_shown`, `EdaCharts.Props.note_exact`, `EdaCharts.Props.series_exact`, `EdaCharts.Props.series_first`, `EdaCharts.Props.heatmap_refused`, `EdaCharts.Props.heatmap_shows`, `EdaCharts.Props.strong_pairs_shown`, `EdaCharts.Props.weak_variables_left_out`, `EdaCharts.Props.bars_limited`, `EdaCharts.Props.bars_all`, `EdaCharts.Props.shares_exact`, `EdaCharts.Props.boxes_exact`, `EdaCharts.Props.geos_exact`, `EdaCharts.Props.geos_largest`, `EdaCharts.Props.knots_marked` (Q, P)
* C103: `DataObject.Props.construct_iff`, `DataObject.Props.construct_view`, `DataObject.Props.caller_arrays`, `DataObject.Props.constructed_shares`, `DataObject.Props.copies_exact`, `DataObject.Props.deep_isolated`, `DataObject.Props.shallow_shared`, `DataObject.Props.copy_of_made`, `DataObject.Props.refused_yet_relabelled`, `DataObject.Props.copy_resets_revenue`, `DataObject.Props.dataset_exact` (Q, P), `DataObject.Props.dataset_of_odd_data`, `DataObject.Props.scaled_exact`
* C104: `RunLog.Props.array_recoverable`, `RunLog.Props.logging_transparent`, `RunLog.Props.model_recorded`, `RunLog.Props.model_texts_recorded`, `RunLog.Props.second_model_unrecorded`, `RunLog.Props.model_run_sound`, `RunLog.Props.prior_recorded`, `RunLog.Props.posterior_recorded`, `RunLog.Props.positional_recorded_as_default`, `RunLog.Props.no_metrics_from_model` (Q, P), `RunLog.Props.metric_of_table`, `RunLog.Props.metrics_of_previous_fit`
* C105: `Publish.Props.quote_roundtrip` (P), `Publish.Props.link_exact`, `Publish.Props.warnings_exact`, `Publish.Props.rf_alone_not_linked`, `Publish.Props.upload_ok_iff`, `Publish.Props.upload_exact`, `Publish.Props.report_shows_table`
* C106: `LegacyKnots.Props.loaded_layout`, `LegacyKnots.Props.same_acceptance`, `LegacyKnots.Props.ends_added`, `LegacyKnots.Props.earlier_chose_more`, `LegacyKnots.Props.national_irrelevant`, `LegacyKnots.Props.resaved_always_other_knots`, `LegacyKnots.Props.resaved_refused` (P), `LegacyKnots.Props.resaved_silently_moved`, `LegacyKnots.Props.resaved_171_other_knots`
* C107: `Announce.Props.no_effect_iff`, `Announce.Props.no_effect_prior_iff`, `Announce.Props.named_iff` (P), `Announce.Props.paid_announced_iff`, `Announce.Props.unpaid_never_announced`, `Announce.Props.absent_channels_silent`, `Announce.Props.national_priors`, `Announce.Props.total_prior_only_for_defaults`, `Announce.Props.accepted_iff`, `Announce.Props.national_settings`, `Announce.Props.geo_arguments`, `Announce.Props.kpi_or_revenue` (Q, P), `Announce.Props.revenue_warning_iff` (P)
* C108: `Nested.Props.nested`, `Nested.Props.larger_budget`, `Nested.Props.lower_target_mroi`, `Nested.Props.lower_target_roi`, `Nested.Props.same_as_fixed_budget`, `Nested.Props.target_mroi_optimal`, `Nested.Props.lower_target`, `Nested.Props.zero_budget_is_historical`, `Nested.Props.larger_budget_less_spent`
* C109: `ScenarioText.Props.rnd_err`, `ScenarioText.Props.rnd_mono`, `ScenarioText.Props.lower_shown`, `ScenarioText.Props.upper_shown`, `ScenarioText.Props.whole_percent`, `ScenarioText.Props.understated`, `ScenarioText.Props.default_limits`, `ScenarioText.Props.limits_hold_for_all`, `ScenarioText.Props.equal_list_not_named`, `ScenarioText.Props.historical_spend`, `ScenarioText.Props.shares_not_historical`, `ScenarioText.Props.historical_budget`, `ScenarioText.Props.two_ends`, `ScenarioText.Props.report_channels`
* C110: `Archive.Props.samples_kept`, `Archive.Props.refused_iff`, `Archive.Props.info_present`, `Archive.Props.converged_iff`, `Archive.Props.agrees_with_check`, `Archive.Props.diverged_recorded_converged`
* C111: `Engine.Props.env_jax_iff`, `Engine.Props.env_warns_iff`, `Engine.Props.only_reload`, `Engine.Props.selected_last`, `Engine.Props.refused_changes_nothing`, `Engine.Props.after_reload`, `Engine.Props.always_known`, `Engine.Props.x64_variable_ignored`, `Engine.Props.reported_precision_stale`, `Engine.Props.load_warns_iff`, `Engine.Props.old_file_silent`, `Engine.Props.provenance_lost`, `Engine.Props.result_type_iff`, `Engine.Props.result_type_numpy`, `Engine.Props.result_type_order`, `Engine.Props.resolve_dtype`, `Engine.Props.no_wide` (P), `Engine.Props.warns_iff` (P), `Engine.Props.warned_single` (P), `Engine.Props.wide_kept` (P), `Engine.Props.strings_kept` (P), `Engine.Props.whole_numbers_narrowed` (P), `Engine.Props.flatten_order`, `Engine.Props.children_no_strings` (Q, P), `Engine.Props.roundtrip`
* C112: `OldFiles.Props.legacy_prior`, `OldFiles.Props.legacy_labels` (Q, P), `OldFiles.Props.legacy_loads_iff` (Q, P), `OldFiles.Props.legacy_warning_iff` (Q, P), `OldFiles.Props.absent_bound_is_zero` (Q, P), `OldFiles.Props.zero_bound_not_reported`, `OldFiles.Props.legacy_file`, `OldFiles.Props.legacy_file_loads_iff` (Q, P), `OldFiles.Props.legacy_file_warning_iff` (Q, P), `OldFiles.Props.legacy_first` (Q, P), `OldFiles.Props.newer_file` (Q, P), `OldFiles.Props.empty_container_not_checked` (Q, P), `OldFiles.Props.eda_round_trip`, `OldFiles.Props.eda_loaded`, `OldFiles.Props.eda_absent`, `OldFiles.Props.absent_vif_threshold_is_zero`, `OldFiles.Props.pickle_round_trip`, `OldFiles.Props.state_free`, `OldFiles.Props.mixture_not_packed` (P)
* C113: `CurveTable.Props.curves_accepted_iff`, `CurveTable.Props.curves_coordinates`, `CurveTable.Props.curves_points`, `CurveTable.Props.curves_at_optimum`, `CurveTable.Props.optimal_curve_highest`, `CurveTable.Props.prior_curves_use_posterior`, `CurveTable.Props.prior_curve_not_at_prior_optimum`
* C114: `Currency.Props.code_variants`, `Currency.Props.normal_form`, `Currency.Props.no_code` (Q, P), `Currency.Props.symbol_of_clean` (Q, P), `Currency.Props.blank_or_clean`, `Currency.Props.symbol_not_empty`, `Currency.Props.code_checked` (Q, P), `Currency.Props.loader_keeps_code` (P), `Currency.Props.saving_keeps_symbol` (P), `Currency.Props.empty_code_lost` (P), `Currency.Props.default_is_symbol_of_data`, `Currency.Props.table_currency`, `Currency.Props.report_amounts`, `Currency.Props.other_figures`, `Currency.Props.warns_iff_given`, `Currency.Props.report_always_warns`, `Currency.Props.spend_bars`, `Currency.Props.chart_size`, `Currency.Props.pie_shares`, `Currency.Props.unchanged_channel_red`, `Currency.Props.results_page_in_dollars` (P), `Currency.Props.page_and_report_differ`
* C115: `TensorFilter.Props.channel_axis_iff` (Q, P), `TensorFilter.Props.flexible_axis_iff`, `TensorFilter.Props.filtered`, `TensorFilter.Props.selected`, `TensorFilter.Props.flags_of_tensor_refused`, `TensorFilter.Props.misread_iff` (Q, P), `TensorFilter.Props.misread_sum`
* C116: `HealthCard.Props.one_row_each`, `HealthCard.Props.check_names_distinct` (none), `HealthCard.Props.row_shows`, `HealthCard.Props.made`, `HealthCard.Props.shift_counts`, `HealthCard.Props.roi_counts`, `HealthCard.Props.shift_row`, `HealthCard.Props.roi_review_names`, `HealthCard.Props.names_listed`, `HealthCard.Props.verdict_iff`, `HealthCard.Props.printed_lines`, `HealthCard.Props.checks_status`, `HealthCard.Props.autoescape_iff`, `HealthCard.Props.jinja_not_escaped`, `HealthCard.Props.page_shows`, `HealthCard.Props.markup_unescaped`, `HealthCard.Props.geo_chip`, `HealthCard.Props.parts_run_together`, `HealthCard.Props.passing_names_nothing`, `HealthCard.Props.nan_reported_converged`
* C117: `AlphaPrior.Props.range_iff`, `AlphaPrior.Props.mass_kept`, `AlphaPrior.Props.exponent_prior`, `AlphaPrior.Props.weights_of_draw`, `AlphaPrior.Props.order_reversed`, `AlphaPrior.Props.density_correct`, `AlphaPrior.Props.point_mass_slips`
* C118: `EdaStack.Props.stack_merge`, `EdaStack.Props.stack_distinct`, `EdaStack.Props.treatment_control_rows`, `EdaStack.Props.spend_units_aligned`, `EdaStack.Props.raw_media_rows`, `EdaStack.Props.without_non_media_rows`, `EdaStack.Props.controls_rows`, `EdaStack.Props.missing_refused` (Q, P), `EdaStack.Props.out_of_order` (P)
* C119: `EdaTables.Props.own_values`, `EdaTables.Props.accepted_iff` (Q, P), `EdaTables.Props.values_of_variables`, `EdaTables.Props.pooled` (P), `EdaTables.Props.rows_largest`, `EdaTables.Props.note_iff`, `EdaTables.Props.adequacy`
