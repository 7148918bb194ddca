{
 "claims": [
  {
   "property": "C01",
   "status": "proved",
   "theorems": [
    "Verif.Adstock.Props.adstock_is_weighted_lag_sum",
    "Verif.Adstock.Props.adstock_rejects"
   ],
   "note": ""
  },
  {
   "property": "C02",
   "status": "proved",
   "theorems": [
    "Verif.Adstock.Props.decay_weights_distribution",
    "Verif.Adstock.Props.decay_weight_value",
    "Verif.Adstock.Props.no_adstock_at_zero"
   ],
   "note": ""
  },
  {
   "property": "C03",
   "status": "proved",
   "theorems": [
    "Verif.Adstock.Props.adstock_causal",
    "Verif.Adstock.Props.adstock_extra_history",
    "Verif.Adstock.Props.adstock_leading_zeros",
    "Verif.Adstock.Props.leading_zeros_matter_below_window"
   ],
   "note": "With fewer than max_lag+1 recorded periods, prepending zero periods does change the result: witness proved."
  },
  {
   "property": "C04",
   "status": "proved",
   "theorems": [
    "Verif.Adstock.Props.adstock_linear",
    "Verif.Adstock.Props.adstock_mono",
    "Verif.Adstock.Props.adstock_range"
   ],
   "note": ""
  },
  {
   "property": "C05",
   "status": "proved",
   "theorems": [
    "Verif.Adstock.Props.hill_shape",
    "Verif.Adstock.Props.hill_series_shape",
    "Verif.Adstock.Props.hill_scale",
    "Verif.Adstock.Props.hill_slope_zero"
   ],
   "note": ""
  },
  {
   "property": "C06",
   "status": "proved",
   "theorems": [
    "Verif.Adstock.Props.conv_process_eq_tf_process"
   ],
   "note": ""
  },
  {
   "property": "C07",
   "status": "proved",
   "theorems": [
    "Verif.Transformers.Props.kpi_inverse",
    "Verif.Transformers.Props.kpi_inverse_training",
    "Verif.Transformers.Props.kpi_inverse_difference",
    "Verif.Transformers.Props.media_inverse",
    "Verif.Transformers.Props.cs_inverse",
    "Verif.Transformers.Props.cs_inverse_needs_scaling",
    "Verif.Transformers.Props.kpi_lost_in_empty_geo"
   ],
   "note": ""
  },
  {
   "property": "C08",
   "status": "proved",
   "theorems": [
    "Verif.Transformers.Props.kpi_standardised",
    "Verif.Transformers.Props.cs_standardised",
    "Verif.Transformers.Props.cs_std_zero_iff",
    "Verif.Transformers.Props.media_scale_correct"
   ],
   "note": ""
  },
  {
   "property": "C09",
   "status": "proved",
   "theorems": [
    "Verif.Knots.Props.weights_accepted_iff",
    "Verif.Knots.Props.weights_interpolate",
    "Verif.Knots.Props.weights_partition_of_unity"
   ],
   "note": ""
  },
  {
   "property": "C10",
   "status": "proved",
   "theorems": [
    "Verif.Knots.Props.knots_int",
    "Verif.Knots.Props.knots_default",
    "Verif.Knots.Props.knots_list",
    "Verif.Knots.Props.repeated_knots_inconsistent"
   ],
   "note": "A list with repeated locations gives an inconsistent layout: witness proved."
  },
  {
   "property": "C11",
   "status": "proved",
   "theorems": [
    "Verif.GridSearch.Props.fixed_budget_respected",
    "Verif.GridSearch.Props.fixed_budget_or_lower_bounds",
    "Verif.Optimizer.Props.fixed_budget_pipeline",
    "Verif.Optimizer.Props.optimized_total_can_exceed_budget",
    "Verif.Optimizer.Props.concave_spends",
    "Verif.Optimizer.Props.fixed_budget_spent_in_full",
    "Verif.Optimizer.Props.budget_left_unspent"
   ],
   "note": "The total is bounded by the rounded budget the search was given and equal to it with diminishing returns; the unrounded requested budget can be exceeded, and without diminishing returns much of it can be left unspent (witnesses proved)."
  },
  {
   "property": "C12",
   "status": "proved",
   "theorems": [
    "Verif.GridSearch.Props.spend_is_grid_value",
    "Verif.GridSearch.Props.spend_within_bounds",
    "Verif.Optimizer.Props.fixed_budget_pipeline"
   ],
   "note": ""
  },
  {
   "property": "C13",
   "status": "proved",
   "theorems": [
    "Verif.GridSearch.Props.search_terminates",
    "Verif.GridSearch.Props.fixed_budget_stops",
    "Verif.Optimizer.Props.pipeline_never_fails"
   ],
   "note": ""
  },
  {
   "property": "C14",
   "status": "proved",
   "theorems": [
    "Verif.GridSearch.Props.greedy_optimal",
    "Verif.Optimizer.Props.fixed_budget_optimal"
   ],
   "note": "Optimal up to the 5e-9 ROI rounding of the search."
  },
  {
   "property": "C15",
   "status": "proved",
   "theorems": [
    "Verif.GridSearch.Props.target_mroi_met",
    "Verif.GridSearch.Props.target_roi_last_purchase",
    "Verif.GridSearch.Props.target_roi_not_guaranteed"
   ],
   "note": "The ROI target is not guaranteed by the code: witness proved."
  },
  {
   "property": "C16",
   "status": "proved",
   "theorems": [
    "Verif.Optimizer.Props.bounds_correct",
    "Verif.Optimizer.Props.constraints_accepted_iff",
    "Verif.Optimizer.Props.pct_of_spend_accepted_iff",
    "Verif.Optimizer.Props.historical_shares",
    "Verif.Optimizer.Props.omitted_constraints",
    "Verif.Optimizer.Props.negative_percentage_accepted"
   ],
   "note": ""
  },
  {
   "property": "C17",
   "status": "proved",
   "theorems": [
    "Verif.Optimizer.Props.round_factor_step",
    "Verif.Optimizer.Props.round_factor_accepts",
    "Verif.Optimizer.Props.gtol_guarantee_fails"
   ],
   "note": "The documented tolerance is false: witness proved."
  },
  {
   "property": "C18",
   "status": "proved",
   "theorems": [
    "Verif.Optimizer.Props.created_grid_columns"
   ],
   "note": ""
  },
  {
   "property": "C19",
   "status": "proved",
   "theorems": [
    "Verif.Optimizer.Props.trim_keeps_range"
   ],
   "note": ""
  },
  {
   "property": "C20",
   "status": "proved",
   "theorems": [
    "Verif.GridReuse.Props.grid_used_iff",
    "Verif.GridReuse.Props.other_settings_rejected",
    "Verif.GridReuse.Props.grid_decides",
    "Verif.GridReuse.Props.own_grid_used",
    "Verif.GridReuse.Props.own_grid_rejected",
    "Verif.GridReuse.Props.accepted_grid_fails",
    "Verif.GridReuse.Props.stale_grid_used",
    "Verif.GridReuse.Props.verdict_ignores_data",
    "Verif.GridReuse.Props.verdict_ignores_tolerance"
   ],
   "note": "The exact acceptance condition is proved; the code does not compare the data, and uses the spend of all geos for a grid of selected geos (witnesses proved)."
  },
  {
   "property": "C21",
   "status": "proved",
   "theorems": [
    "Verif.Optimizer.Props.budget_arguments_accepted_iff",
    "Verif.Optimizer.Props.target_roi_zero_rejected_late"
   ],
   "note": ""
  },
  {
   "property": "C22",
   "status": "proved",
   "theorems": [
    "Verif.Spend.Props.expand_accepted_iff",
    "Verif.Spend.Props.expand_value",
    "Verif.Spend.Props.population_split",
    "Verif.Spend.Props.population_split_unique",
    "Verif.Spend.Props.flighting_accepted_iff",
    "Verif.Spend.Props.media_from_units",
    "Verif.Spend.Props.media_from_spend",
    "Verif.Spend.Props.rf_from_impressions",
    "Verif.Spend.Props.rf_from_spend",
    "Verif.Spend.Props.revenue_spread",
    "Verif.Spend.Props.zero_frequency_loses_impressions"
   ],
   "note": ""
  },
  {
   "property": "C23",
   "status": "proved",
   "theorems": [
    "Verif.TimeCoordinates.Props.selection_accepted_iff",
    "Verif.TimeCoordinates.Props.selection_exact",
    "Verif.TimeCoordinates.Props.selected_dates_exact",
    "Verif.TimeCoordinates.Props.open_interval_rejected"
   ],
   "note": "A DateInterval with an open end is rejected by the code although documented: witness proved."
  },
  {
   "property": "C24",
   "status": "proved",
   "theorems": [
    "Verif.TimeCoordinates.Props.period_bounds_accepted_iff",
    "Verif.TimeCoordinates.Props.periods_contiguous",
    "Verif.TimeCoordinates.Props.fixed_cadence_tiles",
    "Verif.TimeCoordinates.Props.calendar_cadence_tiles",
    "Verif.TimeCoordinates.Props.month_end_gap",
    "Verif.TimeCoordinates.Props.four_week_overlap",
    "Verif.TimeCoordinates.Props.fiscal_quarters_rejected"
   ],
   "note": ""
  },
  {
   "property": "C25",
   "status": "proved",
   "theorems": [
    "Verif.TimeCoordinates.Props.time_axis_accepted_iff",
    "Verif.TimeCoordinates.Props.repeated_date_accepted",
    "Verif.TimeCoordinates.Props.regular_iff",
    "Verif.TimeCoordinates.Props.interval_days_correct"
   ],
   "note": "Repeated dates are accepted by the code: witness proved."
  },
  {
   "property": "C26",
   "status": "proved",
   "theorems": [
    "Verif.InputData.Props.accepted_iff",
    "Verif.InputData.Props.accepted_geos",
    "Verif.InputData.Props.accepted_channels",
    "Verif.InputData.Props.revenue_is_one",
    "Verif.InputData.Props.transposed_kpi_accepted",
    "Verif.InputData.Props.spend_of_other_geos_accepted",
    "Verif.InputData.Props.controls_of_other_dates_accepted",
    "Verif.InputData.Props.media_of_other_dates_accepted",
    "Verif.InputData.Props.negative_media_accepted",
    "Verif.InputData.Props.media_without_spend_accepted"
   ],
   "note": "Date parsing and regular spacing are parameters of the model (the spacing rule is C25). What the checks do not cover is proved by witnesses."
  },
  {
   "property": "C27",
   "status": "proved",
   "theorems": [
    "Verif.Options.Props.args_aligned",
    "Verif.Options.Props.args_accepted_iff",
    "Verif.Options.Props.args_no_missing",
    "Verif.Options.Props.args_order_irrelevant",
    "Verif.Options.Props.unknown_name_ignored",
    "Verif.Options.Props.decay_accepted_iff",
    "Verif.Options.Props.decay_by_channel",
    "Verif.Options.Props.saturation_by_channel",
    "Verif.Options.Props.decay_for_all"
   ],
   "note": "With a default, unknown names are ignored rather than rejected (proved)."
  },
  {
   "property": "C28",
   "status": "proved",
   "theorems": [
    "Verif.Builder.Props.accepted_iff",
    "Verif.Builder.Props.order_irrelevant",
    "Verif.Builder.Props.aligned",
    "Verif.Builder.Props.values_kept",
    "Verif.Builder.Props.build_twice",
    "Verif.Builder.Props.tied_labels_order_dependent",
    "Verif.Builder.Props.rejected_component_kept",
    "Verif.Builder.Props.rejected_component_used"
   ],
   "note": "natsort, the date format and the regularity of dates are parameters. The exceptions (geos natsort cannot tell apart; rejected components stay set) are proved."
  },
  {
   "property": "C29",
   "status": "proved",
   "theorems": [
    "Verif.Spend.Props.allocation_proportional",
    "Verif.Spend.Props.allocation_exists_iff",
    "Verif.Spend.Props.allocation_nonneg",
    "Verif.Spend.Props.aggregate_is_sum",
    "Verif.Spend.Props.aggregate_totals",
    "Verif.Spend.Props.aggregated_spend_is_sum",
    "Verif.Spend.Props.aggregated_spend_by_time",
    "Verif.Spend.Props.aggregated_spend_new_periods",
    "Verif.Spend.Props.aggregated_spend_rows",
    "Verif.Spend.Props.total_spend_entries",
    "Verif.Spend.Props.no_units_no_allocation",
    "Verif.Spend.Props.mixed_spend_has_no_total"
   ],
   "note": "A channel with spend and no units gets a non-finite spend, and mixed ranks of media and RF spend have no total (both proved)."
  },
  {
   "property": "C30",
   "status": "proved",
   "theorems": [
    "Verif.Sampler.Props.roi_prior_media",
    "Verif.Sampler.Props.roi_prior_rf",
    "Verif.Sampler.Props.mroi_prior_media",
    "Verif.Sampler.Props.mroi_prior_rf",
    "Verif.Sampler.Props.contribution_prior_media",
    "Verif.Sampler.Props.contribution_prior_rf",
    "Verif.Sampler.Props.contribution_prior_organicMedia",
    "Verif.Sampler.Props.contribution_prior_organicRf",
    "Verif.Sampler.Props.contribution_prior_nonMedia",
    "Verif.Sampler.Props.reported_roi_is_prior_draw_media",
    "Verif.Sampler.Props.reported_roi_is_prior_draw_rf",
    "Verif.Sampler.Props.reported_mroi_is_prior_draw_media",
    "Verif.Sampler.Props.reported_mroi_is_prior_draw_rf",
    "Verif.Sampler.Props.mroi_prior_ignored_without_saturation",
    "Verif.Sampler.Props.nonMedia_contribution_population_scaled"
   ],
   "note": "Real arithmetic, one draw. Two violations of the property by the code are proved."
  },
  {
   "property": "C31",
   "status": "proved",
   "theorems": [
    "Verif.Sampler.Props.prior_eq_posterior",
    "Verif.Sampler.Props.prior_ignores_organic_rf_prior_type",
    "Verif.Sampler.Props.organic_rf_prior_type_mismatch",
    "Verif.Sampler.Props.baselines_agree",
    "Verif.Sampler.Props.baselines_differ"
   ],
   "note": "The random numbers are inputs. Two violations of the property by the code are proved."
  },
  {
   "property": "C32",
   "status": "proved",
   "theorems": [
    "Verif.Sampler.Props.likelihood_of_observed",
    "Verif.Sampler.Props.held_out_kpi_irrelevant",
    "Verif.Sampler.Props.held_out_kpi_enters_the_scale"
   ],
   "note": "On the scale of the model; that the held-out KPI enters this scale is proved."
  },
  {
   "property": "C33",
   "status": "proved",
   "theorems": [
    "Verif.Sampler.Props.tau_inserted",
    "Verif.Sampler.Props.baseline_geo"
   ],
   "note": ""
  },
  {
   "property": "C34",
   "status": "proved",
   "theorems": [
    "Verif.Batching.Props.batched_draw_by_draw",
    "Verif.Batching.Props.batch_size_irrelevant",
    "Verif.Batching.Props.nonpositive_batch_rejected",
    "Verif.Batching.Props.expected_outcome_batched",
    "Verif.Batching.Props.chain_batches",
    "Verif.Batching.Props.trace_aligned",
    "Verif.Batching.Props.reconstruct_draw_by_draw",
    "Verif.Batching.Props.reconstruct_batch_and_seed_irrelevant",
    "Verif.Batching.Props.reconstruct_nonpositive_rejected",
    "Verif.Batching.Props.posterior_saved",
    "Verif.Batching.Props.no_draws_no_deterministic_variables"
   ],
   "note": "Kernels are draw-wise functions; the joint distribution is a list of nodes, random ones depending on a seed. With zero kept draws the deterministic variables are missing (witness proved)."
  },
  {
   "property": "C35",
   "status": "proved",
   "theorems": [
    "Verif.Mmm.Props.outcome_decomposes",
    "Verif.Mmm.Props.aggregated_outcome_decomposes",
    "Verif.Mmm.Props.incremental_is_difference",
    "Verif.Mmm.Props.incremental_nonmedia_is_difference",
    "Verif.Mmm.Props.incremental_wrong_at_slope_zero"
   ],
   "note": "Real arithmetic, one draw at a time; Hill slopes are positive (witness proved that slope zero breaks it)."
  },
  {
   "property": "C36",
   "status": "proved",
   "theorems": [
    "Verif.Selection.Props.geos_accepted_iff",
    "Verif.Selection.Props.geo_indices_exact",
    "Verif.Selection.Props.times_accepted_iff",
    "Verif.Selection.Props.time_indices_exact",
    "Verif.Selection.Props.aggregate_selected",
    "Verif.Selection.Props.unaggregated_is_table",
    "Verif.Selection.Props.aggregate_additive"
   ],
   "note": "Date normalisation is a parameter of the model."
  },
  {
   "property": "C37",
   "status": "proved",
   "theorems": [
    "Verif.Labels.Props.xr_geo_labels",
    "Verif.Labels.Props.xr_time_labels",
    "Verif.Labels.Props.summary_time_labels",
    "Verif.Labels.Props.summary_geo_labels",
    "Verif.Labels.Props.summary_geo_labels_swapped",
    "Verif.Labels.Props.baseline_time_labels_swapped",
    "Verif.Labels.Props.summary_repeated_geo_refused"
   ],
   "note": "The labels of summary_metrics and baseline_summary_metrics are right only for selections in data order; the mislabelling for other orders is proved."
  },
  {
   "property": "C38",
   "status": "proved",
   "theorems": [
    "Verif.Metrics.Props.roi_definition",
    "Verif.Metrics.Props.roi_by_geo",
    "Verif.Metrics.Props.marginal_roi_definition",
    "Verif.Metrics.Props.cpik_definition",
    "Verif.Metrics.Props.roi_cpik_consistent",
    "Verif.Metrics.Props.roi_accepted_iff",
    "Verif.Metrics.Props.roi_accepted_general",
    "Verif.Metrics.Props.roi_total_spend_mismatch",
    "Verif.Metrics.Props.summary_total",
    "Verif.Metrics.Props.summary_roi_times_spend",
    "Verif.Metrics.Props.summary_cpik_reciprocal",
    "Verif.Metrics.Props.pct_of_spend_sums",
    "Verif.Metrics.Props.cpm_times_impressions",
    "Verif.Metrics.Props.percent_of_contribution"
   ],
   "note": "Real arithmetic, one draw at a time."
  },
  {
   "property": "C39",
   "status": "proved",
   "theorems": [
    "Verif.Curves.Props.factors_accepted_iff",
    "Verif.Curves.Props.curve_accepted_iff",
    "Verif.Curves.Props.curve_meaning",
    "Verif.Curves.Props.curve_anchored",
    "Verif.Curves.Props.curve_monotone",
    "Verif.Curves.Props.curve_linear_by_reach",
    "Verif.Curves.Props.curve_spend"
   ],
   "note": "Real arithmetic; the credible interval of the curve is not modelled, the mean over the draws is."
  },
  {
   "property": "C40",
   "status": "proved",
   "theorems": [
    "Verif.Curves.Props.impressions_kept",
    "Verif.Curves.Props.nanargmax_spec",
    "Verif.Curves.Props.meanRoi_own_frequency",
    "Verif.Curves.Props.optimal_freq_accepted_iff",
    "Verif.Curves.Props.optimal_freq_maximises"
   ],
   "note": ""
  },
  {
   "property": "C41",
   "status": "proved",
   "theorems": [
    "Verif.Options.Props.baseline_follows_rule",
    "Verif.Options.Props.baseline_accepted_iff"
   ],
   "note": "Rational values; at least one geo and time."
  },
  {
   "property": "C42",
   "status": "proved",
   "theorems": [
    "Verif.Options.Props.spec_accepted_iff",
    "Verif.Options.Props.effective_prior_types",
    "Verif.Options.Props.max_lag_unchecked",
    "Verif.Options.Props.negative_knots_accepted"
   ],
   "note": ""
  },
  {
   "property": "C43",
   "status": "proved",
   "theorems": [
    "Verif.SpecSerde.Props.converter_round_trip",
    "Verif.SpecSerde.Props.converters_bijective",
    "Verif.SpecSerde.Props.round_trip_equivalent",
    "Verif.SpecSerde.Props.one_location_becomes_number",
    "Verif.SpecSerde.Props.knot_at_zero_not_loadable",
    "Verif.SpecSerde.Props.one_location_meaning_changed",
    "Verif.SpecSerde.Props.numpy_geo_lost",
    "Verif.SpecSerde.Props.odd_baseline_not_loadable",
    "Verif.SpecSerde.Props.unspecified_defaults",
    "Verif.SpecSerde.Props.same_choice_same_decay"
   ],
   "note": "Tensor messages and 32-bit rounding are parameters. The exceptions are proved."
  },
  {
   "property": "C44",
   "status": "proved",
   "theorems": [
    "Verif.Registry.Props.accepted_iff",
    "Verif.Registry.Props.extra_functions_irrelevant",
    "Verif.Registry.Props.saved_accepted_iff",
    "Verif.Registry.Props.changed_source_rejected",
    "Verif.Registry.Props.only_source_compared",
    "Verif.Registry.Props.hashes_never_updated",
    "Verif.Registry.Props.changed_function_accepted",
    "Verif.Registry.Props.aggregation_round_trip",
    "Verif.Registry.Props.unregistered_not_saved",
    "Verif.Registry.Props.loaded_iff",
    "Verif.Registry.Props.replaced_function_not_loadable"
   ],
   "note": "The hash is a parameter (injective where a rejection is claimed). The recorded hashes are cached at the first use and go stale (proved, with a witness)."
  },
  {
   "property": "C45",
   "status": "proved",
   "theorems": [
    "Verif.DateBuckets.Props.buckets_accepted_iff",
    "Verif.DateBuckets.Props.buckets_exact",
    "Verif.DateBuckets.Props.buckets_disjoint",
    "Verif.DateBuckets.Props.buckets_one_calendar_bucket",
    "Verif.DateBuckets.Props.month_number_merges_years"
   ],
   "note": "Without the gap condition the monthly generator merges years: witness proved."
  },
  {
   "property": "C46",
   "status": "proved",
   "theorems": [
    "Verif.Stabilize.Props.jax_constant_roi",
    "Verif.Stabilize.Props.tf_constant_roi",
    "Verif.Stabilize.Props.zero_spend_zero_outcome",
    "Verif.Stabilize.Props.other_channels_unchanged",
    "Verif.Stabilize.Props.no_rows_no_outcome",
    "Verif.Stabilize.Props.backends_agree_iff",
    "Verif.Stabilize.Props.proportional_unchanged",
    "Verif.Stabilize.Props.negative_roi_differs",
    "Verif.Stabilize.Props.negative_roi_witness",
    "Verif.Stabilize.Props.no_rf_overwrites_media"
   ],
   "note": "The backends agree exactly if the outcome is largest at the largest spend; with a negative ROI they differ (proved)."
  },
  {
   "property": "C47",
   "status": "proved",
   "theorems": [
    "Verif.BandSolve.Props.bandsolve_correct",
    "Verif.BandSolve.Props.bandsolve_accepted_iff",
    "Verif.BandSolve.Props.bandWeight_is_difference_penalty",
    "Verif.BandSolve.Props.mat2rot_stores",
    "Verif.BandSolve.Props.mat2rot_defined_iff",
    "Verif.BandSolve.Props.ridge_solver_minimises",
    "Verif.BandSolve.Props.ridge_solver_fails_on_flat_data",
    "Verif.BandSolve.Props.ridge_solver_needs_bandwidth"
   ],
   "note": "Exact arithmetic. The solver raises when the right-hand side is zero (witness proved)."
  },
  {
   "property": "C48",
   "status": "proved",
   "theorems": [
    "Verif.Aks.Props.selection_respects_request",
    "Verif.Aks.Props.selection_minimises_aic",
    "Verif.Aks.Props.selection_request_consistent",
    "Verif.Aks.Props.request_refused_iff"
   ],
   "note": "The spline fit and the ridge solver are parameters of the model, so the theorems hold whatever they return."
  },
  {
   "property": "C49",
   "status": "proved",
   "theorems": [
    "Verif.Sampler.Props.likelihood_mean_is_expected_outcome"
   ],
   "note": ""
  },
  {
   "property": "C50",
   "status": "proved",
   "theorems": [
    "Verif.Options.Props.shapes_accepted_iff"
   ],
   "note": ""
  },
  {
   "property": "C51",
   "status": "proved",
   "theorems": [
    "Verif.DataFrame.Props.row_order_irrelevant",
    "Verif.DataFrame.Props.cell_kept",
    "Verif.DataFrame.Props.cell_from_frame",
    "Verif.DataFrame.Props.revenue_is_one",
    "Verif.DataFrame.Props.population_mean",
    "Verif.DataFrame.Props.population_values",
    "Verif.DataFrame.Props.loaded_columns",
    "Verif.DataFrame.Props.paid_columns_needed",
    "Verif.DataFrame.Props.unpaired_columns_ignored",
    "Verif.DataFrame.Props.empty_column_dropped",
    "Verif.DataFrame.Props.lagged_revenue_rejected"
   ],
   "note": "natsort, the date format and the regularity of dates are parameters; time labels are strings. What is silently left out, and a documented data frame that is rejected, are proved."
  },
  {
   "property": "C52",
   "status": "proved",
   "theorems": [
    "Verif.TensorProto.Props.numbers_round_trip",
    "Verif.TensorProto.Props.size_bits",
    "Verif.TensorProto.Props.written_iff",
    "Verif.TensorProto.Props.strings_become_bytes"
   ],
   "note": "The JAX implementation; elements are bit patterns of their dtype, so that NaNs and signed zeros are included."
  },
  {
   "property": "C53",
   "status": "proved",
   "theorems": [
    "Verif.DistSerde.Props.toProto_iff",
    "Verif.DistSerde.Props.value_round_trip",
    "Verif.DistSerde.Props.priors_round_trip",
    "Verif.DistSerde.Props.large_int_not_saved",
    "Verif.DistSerde.Props.unregistered_not_saved",
    "Verif.DistSerde.Props.default_in_dict_lost",
    "Verif.DistSerde.Props.tuple_not_saved"
   ],
   "note": "A distribution is its class and its constructor parameters; tensor messages (C52), 32-bit rounding and the backend classes are parameters of the model. Legacy messages are not modelled."
  },
  {
   "property": "C54",
   "status": "proved",
   "theorems": [
    "Verif.Equation.Props.expected_outcome_equation",
    "Verif.Equation.Props.expected_kpi_equation",
    "Verif.Equation.Props.expected_revenue_equation"
   ],
   "note": "Real arithmetic, one draw; the transformers are the subject of C07, adstock and Hill of C01-C06."
  },
  {
   "property": "C55",
   "status": "proved",
   "theorems": [
    "Verif.LogNormal.Props.mean_std",
    "Verif.LogNormal.Props.range_accepted_iff",
    "Verif.LogNormal.Props.range_mass",
    "Verif.LogNormal.Props.total_contribution",
    "Verif.LogNormal.Props.exists_quantile"
   ],
   "note": "About the log-normal distribution itself (Mathlib measure theory), with real arithmetic; the normal quantile function is a parameter."
  },
  {
   "property": "C56",
   "status": "proved",
   "theorems": [
    "Verif.Priors.Props.support_accepted_iff",
    "Verif.Priors.Props.broadcast_accepted_iff",
    "Verif.Priors.Props.broadcast_by_channel",
    "Verif.Priors.Props.broadcast_total",
    "Verif.Priors.Props.national_no_differences",
    "Verif.Priors.Props.knots_one_each",
    "Verif.Priors.Props.one_knot_any_length",
    "Verif.Priors.Props.sigma_by_geo",
    "Verif.Priors.Props.mroi_accepted_iff",
    "Verif.Priors.Props.roi_without_revenue",
    "Verif.Priors.Props.roi_with_revenue",
    "Verif.Priors.Props.negative_accepted_iff",
    "Verif.Priors.Props.context_accepted_iff",
    "Verif.Priors.Props.negative_prior_accepted_by_default",
    "Verif.Priors.Props.rf_judged_by_media_prior_type"
   ],
   "note": "Priors with one batch dimension. Two deviations of the code are proved as such: with one knot the length of the knot prior is not checked (one_knot_any_length), and the check for negative values uses the explicit media_prior_type for all channels, so that by default nothing is rejected."
  },
  {
   "property": "C57",
   "status": "proved",
   "theorems": [
    "Verif.Identify.Props.accepted_iff",
    "Verif.Identify.Props.checkGeo_spec",
    "Verif.Identify.Props.checkTime_spec",
    "Verif.Identify.Props.checkSpend_spec",
    "Verif.Identify.Props.equal_in_all_geos_refused",
    "Verif.Identify.Props.equal_at_all_times_refused",
    "Verif.Identify.Props.differing_not_nearlyConstant"
   ],
   "note": "Exact arithmetic on the scaled data; the standard deviation is compared by its square."
  },
  {
   "property": "C58",
   "status": "proved",
   "theorems": [
    "Verif.Multi.Props.accepted_iff",
    "Verif.Multi.Props.batch_shape",
    "Verif.Multi.Props.elementwise",
    "Verif.Multi.Props.moments",
    "Verif.Multi.Props.sample_by_distribution",
    "Verif.Multi.Props.equal_distributions_equal_draws",
    "Verif.Multi.Props.not_independent"
   ],
   "note": "A distribution is the list of its batch elements and a sampler; a seed is given. The violation of independence is proved: equal components draw equal numbers, so the elements are not independent random variables of the seed."
  },
  {
   "property": "C59",
   "status": "proved",
   "theorems": [
    "Verif.DistEq.Props.equal_iff",
    "Verif.DistEq.Props.equal_self",
    "Verif.DistEq.Props.different_class",
    "Verif.DistEq.Props.different_number",
    "Verif.DistEq.Props.not_symmetric",
    "Verif.DistEq.Props.batch_equals_scalar",
    "Verif.DistEq.Props.nan_not_equal",
    "Verif.DistEq.Props.sizes_raise"
   ],
   "note": "Exact rationals or NaN, tensors of at most one dimension, any nesting of distributions. Four deviations are proved as such: not symmetric, a batch equals a scalar, NaN differs from itself, batches of different sizes raise."
  },
  {
   "property": "C60",
   "status": "proved",
   "theorems": [
    "Verif.Thin.Props.indices_regular",
    "Verif.Thin.Props.thin_result",
    "Verif.Thin.Props.thin_refused",
    "Verif.Thin.Props.equally_likely",
    "Verif.Thin.Props.restore_after_thin",
    "Verif.Thin.Props.history_of_one_fit",
    "Verif.Thin.Props.restore_raises_if_all_kept",
    "Verif.Thin.Props.restore_undoes_refit",
    "Verif.Thin.Props.second_fit_not_preserved"
   ],
   "note": "Exact arithmetic; the random generator gives a number in [0,1) for each chain. Three deviations are proved as such: restoring after keeping all draws raises, restoring after a new fit brings back the old fit, and a second fit is not preserved by thinning."
  },
  {
   "property": "C61",
   "status": "proved",
   "theorems": [
    "Verif.SaveLoad.Props.load_after_save",
    "Verif.SaveLoad.Props.load_saved",
    "Verif.SaveLoad.Props.loaded_valid",
    "Verif.SaveLoad.Props.crash_states",
    "Verif.SaveLoad.Props.unsupported_refused",
    "Verif.SaveLoad.Props.crash_loses_saved_model",
    "Verif.SaveLoad.Props.failed_save_loses_saved_model",
    "Verif.SaveLoad.Props.unsupported_empties_file",
    "Verif.SaveLoad.Props.bare_name_refused",
    "Verif.SaveLoad.Props.reported_success_loads",
    "Verif.SaveLoad.Props.saved_in_directory",
    "Verif.SaveLoad.Props.review_lost",
    "Verif.SaveLoad.Props.resaved_old_model_changes"
   ],
   "note": "The parts of a model and protocol buffers are parameters, with their round trips as hypotheses (proved of the parts in C43, C52, C53 and, for the input data, C68). Violations proved as such: saving is not atomic, a failing save empties the file, a bare file name is refused, the review is lost, a model with knots of an old version does not survive."
  },
  {
   "property": "C62",
   "status": "proved",
   "theorems": [
    "Verif.Interval.Props.accepted_iff",
    "Verif.Interval.Props.result_finite",
    "Verif.Interval.Props.median_is_extra",
    "Verif.Interval.Props.mean_is_average",
    "Verif.Interval.Props.interval_ordered",
    "Verif.Interval.Props.nested",
    "Verif.Interval.Props.tails_small",
    "Verif.Interval.Props.tails_large",
    "Verif.Interval.Props.coverage",
    "Verif.Interval.Props.exact_ranks",
    "Verif.Interval.Props.linear_between",
    "Verif.Interval.Props.median_splits",
    "Verif.Interval.Props.full_level",
    "Verif.Interval.Props.order_irrelevant",
    "Verif.Interval.Props.nan_spreads",
    "Verif.Interval.Props.rescale",
    "Verif.Interval.Props.negative_level_swaps",
    "Verif.Interval.Props.mean_outside_interval"
   ],
   "note": "Exact arithmetic with NaN; numpy.quantile is modelled with its default (linear) interpolation. Two surprises are proved as such: a negative level is accepted and swaps the ends, and the mean can lie outside its own interval."
  },
  {
   "property": "C63",
   "status": "proved",
   "theorems": [
    "Verif.Accuracy.Props.metrics_of_gaps",
    "Verif.Accuracy.Props.rsq_le_one",
    "Verif.Accuracy.Props.wmape_weighted",
    "Verif.Accuracy.Props.accuracy_table",
    "Verif.Accuracy.Props.expected_mean",
    "Verif.Accuracy.Props.one_date_decides_split",
    "Verif.Accuracy.Props.other_form_refused",
    "Verif.Accuracy.Props.other_form_single",
    "Verif.Accuracy.Props.split_is_wrong"
   ],
   "note": "Floats without rounding, with infinities and NaN. The table is proved for selected dates written as in the data; for dates in another form, which are accepted, the split is wrong or refused (proved)."
  },
  {
   "property": "C64",
   "status": "proved",
   "theorems": [
    "Verif.FitData.Props.accepted",
    "Verif.FitData.Props.reported_unsplit",
    "Verif.FitData.Props.reported_split",
    "Verif.FitData.Props.reported_split_baseline",
    "Verif.FitData.Props.each_observation",
    "Verif.FitData.Props.all_data_unsplit",
    "Verif.FitData.Props.actual_totals",
    "Verif.FitData.Props.mixed_blank",
    "Verif.FitData.Props.mixed_blank_witness",
    "Verif.FitData.Props.plotted_line",
    "Verif.FitData.Props.plotted_geo",
    "Verif.FitData.Props.plotted_band_wrong",
    "Verif.FitData.Props.useKpi_iff",
    "Verif.FitData.Props.new_shows",
    "Verif.FitData.Props.update_shows",
    "Verif.FitData.Props.update_forgets_kpi",
    "Verif.FitData.Props.update_forgets_kpi_witness"
   ],
   "note": "Exact arithmetic with NaN; the draws of the expected outcome are inputs. Violations proved as such: with a holdout, sums that contain a held-out and a training cell are blank in both sets; the national band of the plot is not the interval of the national outcome; changing the confidence level forgets use_kpi."
  },
  {
   "property": "C65",
   "status": "proved",
   "theorems": [
    "Verif.Rhat.Props.masked_names",
    "Verif.Rhat.Props.masked_exactly",
    "Verif.Rhat.Props.summary_describes",
    "Verif.Rhat.Props.summary_refused_iff",
    "Verif.Rhat.Props.linear_never_listed",
    "Verif.Rhat.Props.masked_dilute",
    "Verif.Rhat.Props.nothing_known",
    "Verif.Rhat.Props.check_spec",
    "Verif.Rhat.Props.first_unknown",
    "Verif.Rhat.Props.fixed_first_parameter_fails"
   ],
   "note": "R-hat values are inputs (numbers, infinities or NaN), arithmetic is exact. Violations proved as such: masked channels dilute the share of bad values; a fixed first parameter makes the check fail; without any known value the check says converged."
  },
  {
   "property": "C66",
   "status": "proved",
   "theorems": [
    "Verif.Review.Props.within_iff",
    "Verif.Review.Props.within_no_channels",
    "Verif.Review.Props.config_valid_iff",
    "Verif.Review.Props.baseline_cases",
    "Verif.Review.Props.ppp_pass_iff",
    "Verif.Review.Props.ppp_outlier_fails",
    "Verif.Review.Props.ppp_centre_passes",
    "Verif.Review.Props.gof_review_iff",
    "Verif.Review.Props.gof_nan_passes",
    "Verif.Review.Props.roi_one_each",
    "Verif.Review.Props.roi_channel_case",
    "Verif.Review.Props.roi_undefined",
    "Verif.Review.Props.roi_pass_iff",
    "Verif.Review.Props.shift_found",
    "Verif.Review.Props.shift_only_if",
    "Verif.Review.Props.infinite_prior_mean_always_shifts",
    "Verif.Review.Props.unknown_prior_never_shifts",
    "Verif.Review.Props.shift_pass_iff",
    "Verif.Review.Props.plaus_cases",
    "Verif.Review.Props.spendShare_spec",
    "Verif.Review.Props.not_converged_stops",
    "Verif.Review.Props.review_results",
    "Verif.Review.Props.not_fully_converged_fails",
    "Verif.Review.Props.default_thresholds",
    "Verif.Review.Props.default_review_iff",
    "Verif.Review.Props.default_review_ids",
    "Verif.Review.Props.mixed_priors_raise",
    "Verif.Review.Props.mixed_priors_witness",
    "Verif.Review.Props.battery_needs_required",
    "Verif.Review.Props.default_injectable",
    "Verif.Review.Props.custom_battery_not_injectable"
   ],
   "note": "Findings: the default review raises an exception if media and RF channels have different prior types and one of them is ROI; an R-squared that is not a number passes; a prior without finite mean always counts as shifted; reviews with another battery may be rejected when injected. The quantities computed by the analyzer are inputs of the model."
  },
  {
   "property": "C67",
   "status": "proved",
   "theorems": [
    "Verif.Health.Props.baseline_score",
    "Verif.Health.Props.baseline_antitone",
    "Verif.Health.Props.gof_score",
    "Verif.Health.Props.fit_range",
    "Verif.Health.Props.fit_strictMono",
    "Verif.Health.Props.ratio_score",
    "Verif.Health.Props.passing_strictMono",
    "Verif.Health.Props.health_range",
    "Verif.Health.Props.health_without_roi",
    "Verif.Health.Props.health_default_roi",
    "Verif.Health.Props.health_custom_roi",
    "Verif.Health.Props.ppp_boundary",
    "Verif.Health.Props.ppp_score",
    "Verif.Health.Props.convergence_irrelevant",
    "Verif.Health.Props.nan_fit_nan_score",
    "Verif.Health.Props.inverted_thresholds",
    "Verif.Health.Props.equal_thresholds"
   ],
   "note": "Findings: a p-value equal to its threshold passes and scores 0; incomplete convergence fails the review without lowering the score; an R-squared that is not a number passes its check and makes the score NaN; baseline thresholds in the wrong order are accepted and invert the score."
  },
  {
   "property": "C68",
   "status": "proved",
   "theorems": [
    "Verif.DataSerde.Props.save_then_load",
    "Verif.DataSerde.Props.unchanged_iff",
    "Verif.DataSerde.Props.one_period_not_saved",
    "Verif.DataSerde.Props.total_spend_interval",
    "Verif.DataSerde.Props.reach_fraction_lost",
    "Verif.DataSerde.Props.short_dates_not_loaded",
    "Verif.DataSerde.Props.other_dates_lost",
    "Verif.DataSerde.Props.unnamed_geo_lost",
    "Verif.DataSerde.Props.order_of_geos_changed",
    "Verif.DataSerde.Props.empty_currency_lost"
   ],
   "note": "Ordinary data are described in Spec/DataSerde.lean. Dates are read and written by a calendar parameter. Violations proved as such: fractions of reach, short dates, controls with other dates, unnamed geos, the order of geos, an empty currency."
  },
  {
   "property": "C69",
   "status": "proved",
   "theorems": [
    "Verif.Eda.Props.pair_reported_iff",
    "Verif.Eda.Props.pair_reported_once",
    "Verif.Eda.Props.threshold_one_reports_nothing",
    "Verif.Eda.Props.same_up_to_units_iff",
    "Verif.Eda.Props.pairs_unit_free",
    "Verif.Eda.Props.vif_reported_iff",
    "Verif.Eda.Props.redundant_iff",
    "Verif.Eda.Props.vif_at_least_one",
    "Verif.Eda.Props.pair_inflates",
    "Verif.Eda.Props.inflated_monotone",
    "Verif.Eda.Props.factors_see_more",
    "Verif.Eda.Props.kpi_passes_iff",
    "Verif.Eda.Props.single_cell_fails",
    "Verif.Eda.Props.constant_kpi_may_pass",
    "Verif.Eda.Props.varying_kpi_may_fail",
    "Verif.Eda.Props.sampling_allowed_iff",
    "Verif.Eda.Props.geo_findings_do_not_block",
    "Verif.Eda.Props.pair_attention_iff",
    "Verif.Eda.Props.vif_attention_iff",
    "Verif.Eda.Props.guardrail_names",
    "Verif.Eda.Props.model_refused_iff",
    "Verif.Eda.Props.constant_kpi_never_sampled",
    "Verif.Eda.Props.small_sampled"
   ],
   "note": "Exact real arithmetic; the scaled series are inputs of the model. Findings: the threshold for the variability of the KPI has no effect between 0 and 1; the KPI per head decides, so the same KPI in all geos may pass; the documentation of the threshold says an error is raised above it, it is raised below."
  },
  {
   "property": "C70",
   "status": "proved",
   "theorems": [
    "Verif.EdaStd.Props.outliers_reported",
    "Verif.EdaStd.Props.outliers_sorted",
    "Verif.EdaStd.Props.stds_reported",
    "Verif.EdaStd.Props.half_kept",
    "Verif.EdaStd.Props.std_without_exists",
    "Verif.EdaStd.Props.others_are_outliers",
    "Verif.EdaStd.Props.mostly_constant_std",
    "Verif.EdaStd.Props.outliers_rescaled",
    "Verif.EdaStd.Props.findings_exact",
    "Verif.EdaStd.Props.artifacts_exact",
    "Verif.EdaStd.Props.geo_check_refused",
    "Verif.EdaStd.Props.sparse_reported"
   ],
   "note": "xarray quantile (linear, NaN skipped) and std (ddof 1, NaN skipped) are modelled from their documentation; the scaled data enter as given. A channel that is off in more than three quarters of the periods is always reported for zero variation and for outliers (proved)."
  },
  {
   "property": "C71",
   "status": "proved",
   "theorems": [
    "Verif.EdaStd.Props.inconsistencies_reported",
    "Verif.EdaStd.Props.cost_outliers_reported",
    "Verif.EdaStd.Props.cost_findings_exact",
    "Verif.EdaStd.Props.cost_level",
    "Verif.EdaStd.Props.currency_irrelevant"
   ],
   "note": "Cost and units enter on common labels and times."
  },
  {
   "property": "C72",
   "status": "proved",
   "theorems": [
    "Verif.EdaData.Props.national_frequency",
    "Verif.EdaData.Props.national_frequency_one",
    "Verif.EdaData.Props.national_total",
    "Verif.EdaData.Props.scaled_median_one",
    "Verif.EdaData.Props.units_free",
    "Verif.EdaData.Props.national_variable",
    "Verif.EdaData.Props.national_kpi",
    "Verif.EdaData.Props.same_names",
    "Verif.EdaData.Props.national_contents",
    "Verif.EdaData.Props.geo_contents",
    "Verif.EdaData.Props.media_per_head",
    "Verif.EdaData.Props.impressions_per_head",
    "Verif.EdaData.Props.national_media_sum",
    "Verif.EdaData.Props.national_rf_sum",
    "Verif.EdaData.Props.national_same",
    "Verif.EdaData.Props.geo_defined_iff",
    "Verif.EdaData.Props.national_defined_iff",
    "Verif.EdaData.Props.silent_rf_stops_sampling",
    "Verif.EdaData.Props.silent_media_no_exception",
    "Verif.EdaData.Props.silent_channel_accepted_not_sampled"
   ],
   "note": "Exact real arithmetic. Finding: a reach and frequency channel without impressions in the modelled periods is accepted but makes sampling impossible, while a media channel in the same situation is not refused."
  },
  {
   "property": "C73",
   "status": "proved",
   "theorems": [
    "Verif.EdaMore.Props.spearman_none_iff",
    "Verif.EdaMore.Props.spearman_bounds",
    "Verif.EdaMore.Props.spearman_order_only",
    "Verif.EdaMore.Props.spearman_symm",
    "Verif.EdaMore.Props.spearman_reverse",
    "Verif.EdaMore.Props.spearman_one_iff",
    "Verif.EdaMore.Props.spearman_minus_one_iff",
    "Verif.EdaMore.Props.spearman_formula",
    "Verif.EdaMore.Props.rsq_shares",
    "Verif.EdaMore.Props.rsq_bounds",
    "Verif.EdaMore.Props.rsq_sum",
    "Verif.EdaMore.Props.collinearity_entries",
    "Verif.EdaMore.Props.single_geo_refused",
    "Verif.EdaMore.Props.adjusted_meaning",
    "Verif.EdaMore.Props.adjusted_unit_free",
    "Verif.EdaMore.Props.collinearity_unit_matters",
    "Verif.EdaMore.Props.constant_over_time_not_nan",
    "Verif.EdaMore.Props.ratio_meaning",
    "Verif.EdaMore.Props.negative_baseline_bounds",
    "Verif.EdaMore.Props.contributions_meaning",
    "Verif.EdaMore.Props.total_meaning"
   ],
   "note": "Exact real numbers; least squares on a category is modelled as the infimum over all functions of the category. Violations proved as such: the absolute threshold for a constant variable makes the report depend on units, and a variable constant over time gets a negative number where NaN is announced."
  },
  {
   "property": "C74",
   "status": "proved",
   "theorems": [
    "Verif.Weekly.Props.interp_meaning",
    "Verif.Weekly.Props.interp_error",
    "Verif.Weekly.Props.interp_concave",
    "Verif.Weekly.Props.interp_linear",
    "Verif.Weekly.Props.period_is_sum_of_weeks",
    "Verif.Weekly.Props.periods_add",
    "Verif.Weekly.Props.same_spend_levels",
    "Verif.Weekly.Props.scenario_outcome",
    "Verif.Weekly.Props.proportional_outcome",
    "Verif.Weekly.Props.no_grid_iff",
    "Verif.Weekly.Props.levels_covered",
    "Verif.Weekly.Props.historical_budget_covered",
    "Verif.Weekly.Props.outcome_without_spend",
    "Verif.Weekly.Props.outcome_cut_off",
    "Verif.Weekly.Props.refused_within_limits",
    "Verif.Weekly.Props.refused_because_of_step"
   ],
   "note": "Exact arithmetic. Violations proved as such: a channel whose spend rounds to zero is given an outcome for no spend, a spend level beyond the multipliers is accepted and cut off, scenarios within the announced limits are refused because of rounding or of the step."
  },
  {
   "property": "C75",
   "status": "proved",
   "theorems": [
    "Verif.Weekly.Props.limits_accepted_iff",
    "Verif.Weekly.Props.multipliers_meaning",
    "Verif.Weekly.Props.multipliers_ends",
    "Verif.Weekly.Props.cell_meaning",
    "Verif.Weekly.Props.cell_zero",
    "Verif.Weekly.Props.outcomes_any_batch",
    "Verif.Weekly.Props.create_meaning",
    "Verif.Weekly.Props.combine_accepts_iff",
    "Verif.Weekly.Props.combine_result",
    "Verif.Weekly.Props.combine_period",
    "Verif.Weekly.Props.combine_any_order",
    "Verif.Weekly.Props.negative_multipliers",
    "Verif.Weekly.Props.single_grid_unchecked"
   ],
   "note": "Exact arithmetic; the transformation of media is any function of the multiplier. Violations proved as such: a variation above one gives negative multipliers, a single grid is not checked for gaps."
  },
  {
   "property": "C76",
   "status": "proved",
   "theorems": [
    "Verif.Results.Props.grid_cell_own_multiplier",
    "Verif.Results.Props.grid_outcome",
    "Verif.Results.Props.reported_outcome",
    "Verif.Results.Props.report_matches_search",
    "Verif.Results.Props.curve_through_points",
    "Verif.Results.Props.history_reported",
    "Verif.Results.Props.no_history_no_outcome",
    "Verif.Results.Props.totals_consistent",
    "Verif.Results.Props.roi_reported",
    "Verif.Results.Props.mroi_reported",
    "Verif.Results.Props.rf_mroi_is_roi",
    "Verif.Results.Props.impressions_reported",
    "Verif.Results.Props.effectiveness_reported",
    "Verif.Results.Props.cpik_reported",
    "Verif.Results.Props.roi_warning_iff",
    "Verif.Results.Props.met_target_not_warned",
    "Verif.Results.Props.mroi_warning_iff",
    "Verif.Results.Props.no_target_no_warning",
    "Verif.Results.Props.unpaid_channel_reported_zero"
   ],
   "note": "Exact real arithmetic on the model of the incremental outcome of C13-C16; credible intervals of the report are those of C62. Violation proved as such: a channel without historical spend in the period is reported with outcome zero although its executions have an effect."
  },
  {
   "property": "C77",
   "status": "proved",
   "theorems": [
    "Verif.ResultCharts.Props.changes_table",
    "Verif.ResultCharts.Props.changes_add_up",
    "Verif.ResultCharts.Props.unknown_change_left_out",
    "Verif.ResultCharts.Props.waterfall",
    "Verif.ResultCharts.Props.channel_called_optimized",
    "Verif.ResultCharts.Props.margin",
    "Verif.ResultCharts.Props.axis_shows_bars",
    "Verif.ResultCharts.Props.axis_cuts_off",
    "Verif.ResultCharts.Props.top_channels",
    "Verif.ResultCharts.Props.negative_number_accepted",
    "Verif.ResultCharts.Props.curve_points",
    "Verif.ResultCharts.Props.constraint_shown",
    "Verif.ResultCharts.Props.points_drawn",
    "Verif.ResultCharts.Props.allocation_table",
    "Verif.ResultCharts.Props.percentages_add_up",
    "Verif.ResultCharts.Props.times_selected",
    "Verif.ResultCharts.Props.model_times_selected",
    "Verif.ResultCharts.Props.other_form_selects_nothing"
   ],
   "note": "The rows and the Vega transformations behind the charts; drawing is not modelled. Violations proved as such: the axis of the waterfall chart cuts off the bars if the optimization lowers the total; a negative number of channels is accepted; times of new data written in another form select nothing, without an error."
  },
  {
   "property": "C78",
   "status": "proved",
   "theorems": [
    "Verif.Formatter.Props.digits_read",
    "Verif.Formatter.Props.compact_read",
    "Verif.Formatter.Props.amount_read",
    "Verif.Formatter.Props.percent_read",
    "Verif.Formatter.Props.share_read",
    "Verif.Formatter.Props.fixed_read",
    "Verif.Formatter.Props.change_signs",
    "Verif.Formatter.Props.amounts_shown",
    "Verif.Formatter.Props.performance_read",
    "Verif.Formatter.Props.thousand_thousands",
    "Verif.Formatter.Props.negative_zero",
    "Verif.Formatter.Props.negative_percentage",
    "Verif.Formatter.Props.shown_change_differs",
    "Verif.Formatter.Props.cpik_increase_unsigned"
   ],
   "note": "Exact arithmetic (the value of a float is exact); logarithms are exact. Reading a text back is specified in Spec/Formatter.lean."
  },
  {
   "property": "C79",
   "status": "proved",
   "theorems": [
    "Verif.Summary.Props.summary_accepted_iff",
    "Verif.Summary.Props.summary_variables",
    "Verif.Summary.Props.summary_outcome",
    "Verif.Summary.Props.summary_spend",
    "Verif.Summary.Props.summary_roi_cpik",
    "Verif.Summary.Props.summary_effectiveness",
    "Verif.Summary.Props.summary_mroi",
    "Verif.Summary.Props.summary_contribution",
    "Verif.Summary.Props.baseline_values",
    "Verif.Summary.Props.contributions_complete",
    "Verif.Summary.Props.optimal_frequency_without_effect",
    "Verif.Summary.Props.organic_frequency_rejected"
   ],
   "note": "Real arithmetic; quotients by zero are left open; the order statistics are a parameter (C62 treats them). Spend is given by geo and time. Violations proved as such: the frequencies passed as optimal_frequency have no effect on the table; with non-paid channels they can be refused for their shape."
  },
  {
   "property": "C80",
   "status": "proved",
   "theorems": [
    "Verif.FreqReport.Props.freq_accepted_iff",
    "Verif.FreqReport.Props.freq_grid_values",
    "Verif.FreqReport.Props.freq_optimum",
    "Verif.FreqReport.Props.freq_optimized",
    "Verif.FreqReport.Props.optimized_roi_is_maximum",
    "Verif.FreqReport.Props.default_grid",
    "Verif.FreqReport.Props.optimized_level_ignored",
    "Verif.FreqReport.Props.prior_only_rejected",
    "Verif.FreqReport.Props.low_frequency_rejected"
   ],
   "note": "Real arithmetic, spend not zero. Violations proved as such: the confidence level does not reach the optimised quantities; the posterior is needed even for the prior; the default grid is empty if no frequency exceeds 1."
  },
  {
   "property": "C81",
   "status": "proved",
   "theorems": [
    "Verif.MediaCurves.Props.decay_accepted_iff",
    "Verif.MediaCurves.Props.decay_rows",
    "Verif.MediaCurves.Props.decay_order",
    "Verif.MediaCurves.Props.decay_matches_model",
    "Verif.MediaCurves.Props.decay_shape",
    "Verif.MediaCurves.Props.hill_accepted_iff",
    "Verif.MediaCurves.Props.hill_rows",
    "Verif.MediaCurves.Props.hill_curve_shape",
    "Verif.MediaCurves.Props.hist_rows",
    "Verif.MediaCurves.Props.dataframe_rows",
    "Verif.MediaCurves.Props.last_lag_missing",
    "Verif.MediaCurves.Props.no_carryover_shown",
    "Verif.MediaCurves.Props.binomial_undefined",
    "Verif.MediaCurves.Props.curve_for_linear",
    "Verif.MediaCurves.Props.plot_without_prior_drops_histogram"
   ],
   "note": "Real arithmetic; the rounding of the grids is not modelled; the order statistics are a parameter (C62 treats them). The values of the decay are claimed for a maximum lag of at most the number of periods; beyond it `binomial_undefined` shows that they can be missing."
  },
  {
   "property": "C82",
   "status": "proved",
   "theorems": [
    "Verif.Views.Props.settings_current",
    "Verif.Views.Props.get_current",
    "Verif.Views.Props.get_some_time",
    "Verif.Views.Props.update_ignored",
    "Verif.Views.Props.stale_after_update",
    "Verif.Views.Props.title_not_intervals",
    "Verif.Views.Props.title_cuts",
    "Verif.Views.Props.evicted",
    "Verif.Views.Props.rf_current",
    "Verif.Views.Props.by_reach_ignored",
    "Verif.Views.Props.num_displayed",
    "Verif.Views.Props.top_channels",
    "Verif.Views.Props.title_counts_all"
   ],
   "note": "The analyzer is an arbitrary function of its arguments that can raise. The cache is the LRU cache of 128 entries shared by all objects of the class, with Python's distinction of omitted, keyword and positional arguments."
  },
  {
   "property": "C83",
   "status": "proved",
   "theorems": [
    "Verif.Contrib.Props.contribution_accepted_iff",
    "Verif.Contrib.Props.contribution_rows",
    "Verif.Contrib.Props.contribution_meaning",
    "Verif.Contrib.Props.baseline_agrees",
    "Verif.Contrib.Props.waterfall",
    "Verif.Contrib.Props.text_right",
    "Verif.Contrib.Props.ranks",
    "Verif.Contrib.Props.quarterly",
    "Verif.Contrib.Props.area_floor",
    "Verif.Contrib.Props.spend_rows",
    "Verif.Contrib.Props.scaled_roi",
    "Verif.Contrib.Props.scaled_roi_negative",
    "Verif.Contrib.Props.negative_roi_reversed",
    "Verif.Contrib.Props.bubble_channels",
    "Verif.Contrib.Props.equal_axes_cut",
    "Verif.Contrib.Props.bar_rows",
    "Verif.Contrib.Props.selection_incomplete",
    "Verif.Contrib.Props.pie_rows",
    "Verif.Contrib.Props.upper_collides",
    "Verif.Contrib.Props.zero_total",
    "Verif.Contrib.Props.stale_times_mixed"
   ],
   "note": "Exact arithmetic in an ordered field. The connection to the model uses the summary of C79. Rows of equal outcome keep their order, which pandas guarantees only for the table by time. Channel names are unique and none is \"All Channels\"."
  },
  {
   "property": "C84",
   "status": "proved",
   "theorems": [
    "Verif.SummaryTable.Props.table_rows",
    "Verif.SummaryTable.Props.table_cells",
    "Verif.SummaryTable.Props.interval_order",
    "Verif.SummaryTable.Props.columns_reported",
    "Verif.SummaryTable.Props.returns_shown_equal",
    "Verif.SummaryTable.Props.nan_hides_decimals",
    "Verif.SummaryTable.Props.spend_without_currency",
    "Verif.SummaryTable.Props.sign_after_currency"
   ],
   "note": "Exact numbers; infinite values are not modelled. Channel names are distinct and none is \"mean\" or \"median\". The datasets of the summary (C79) are given."
  },
  {
   "property": "C85",
   "status": "proved",
   "theorems": [
    "Verif.DatedSpec.Props.spec_accepted_iff",
    "Verif.DatedSpec.Props.optimization_accepted_iff",
    "Verif.DatedSpec.Props.resolves_iff",
    "Verif.DatedSpec.Props.selection_half_open",
    "Verif.DatedSpec.Props.flags_half_open",
    "Verif.DatedSpec.Props.collapse_is_spec",
    "Verif.DatedSpec.Props.intervals_tile",
    "Verif.DatedSpec.Props.empty_range_never_resolves",
    "Verif.DatedSpec.Props.month_end_refused",
    "Verif.DatedSpec.Props.month_intervals_do_not_tile"
   ],
   "note": "Dates are calendar dates from year 1 on; conversion to text and back is the identity. Names are checked for ASCII white space."
  },
  {
   "property": "C86",
   "status": "proved",
   "theorems": [
    "Verif.Consumer.Props.groups_exact",
    "Verif.Consumer.Props.groups_partition",
    "Verif.Consumer.Props.groups_order",
    "Verif.Consumer.Props.params_exact",
    "Verif.Consumer.Props.proto_exact",
    "Verif.Consumer.Props.order_between_classes",
    "Verif.Consumer.Props.duplicate_only_with_specs",
    "Verif.Consumer.Props.derived_spec_refused",
    "Verif.Consumer.Props.not_fitted_never_said"
   ],
   "note": "What a processor computes from its specs is a parameter. A missing group of the inference data is an attribute error (arviz)."
  },
  {
   "property": "C87",
   "status": "proved",
   "theorems": [
    "Verif.FitProto.Props.level_accepted_iff",
    "Verif.FitProto.Props.first_spec_only",
    "Verif.FitProto.Props.results_named",
    "Verif.FitProto.Props.predictions_exact",
    "Verif.FitProto.Props.performance_exact",
    "Verif.FitProto.Props.produced_iff",
    "Verif.FitProto.Props.unsplit_fails_with_holdout",
    "Verif.FitProto.Props.partial_holdout_is_nan",
    "Verif.FitProto.Props.actual_not_split"
   ],
   "note": "Exact numbers; draws of the outcomes are given, as in C64. Dates increase and there is one per time."
  },
  {
   "property": "C88",
   "status": "proved",
   "theorems": [
    "Verif.MarketingProto.Props.accepted_iff",
    "Verif.MarketingProto.Props.incremental_accepted_iff",
    "Verif.MarketingProto.Props.output_by_spec",
    "Verif.MarketingProto.Props.axis_exact",
    "Verif.MarketingProto.Props.media_intervals",
    "Verif.MarketingProto.Props.media_exact",
    "Verif.MarketingProto.Props.spend_and_curve_exact",
    "Verif.MarketingProto.Props.nonmedia_exact",
    "Verif.MarketingProto.Props.incremental_exact",
    "Verif.MarketingProto.Props.produced_iff",
    "Verif.MarketingProto.Props.incremental_non_paid_ignored",
    "Verif.MarketingProto.Props.media_times_ignored",
    "Verif.MarketingProto.Props.total_is_non_media",
    "Verif.MarketingProto.Props.baseline_ignores_new_data",
    "Verif.MarketingProto.Props.baseline_of_other_period",
    "Verif.MarketingProto.Props.baseline_in_revenue_only",
    "Verif.MarketingProto.Props.cost_and_return_both"
   ],
   "note": "The analyzer is a parameter: its datasets are functions of the arguments of the calls, with the channels and times they are documented to have."
  },
  {
   "property": "C89",
   "status": "proved",
   "theorems": [
    "Verif.BudgetProto.Props.constraint_accepted_iff",
    "Verif.BudgetProto.Props.scenario_accepted_iff",
    "Verif.BudgetProto.Props.spec_accepted_iff",
    "Verif.BudgetProto.Props.execute_iff",
    "Verif.BudgetProto.Props.ratios_iff",
    "Verif.BudgetProto.Props.constraints_accepted_iff",
    "Verif.BudgetProto.Props.default_ratios",
    "Verif.BudgetProto.Props.message_exact",
    "Verif.BudgetProto.Props.constraints_bracket_spend",
    "Verif.BudgetProto.Props.outcome_labels",
    "Verif.BudgetProto.Props.cells_aligned",
    "Verif.BudgetProto.Props.message_produced_iff",
    "Verif.BudgetProto.Props.fresh_faithful",
    "Verif.BudgetProto.Props.cells_misaligned",
    "Verif.BudgetProto.Props.zero_accepted_never_run",
    "Verif.BudgetProto.Props.reported_budget_not_historical",
    "Verif.BudgetProto.Props.label_mismatch"
   ],
   "note": "The optimizer is a parameter; constraints_bracket_spend and outcome_labels assume it runs the modelled grid search on some regular grid, and fresh_faithful shows that one built from the modelled grid creation does."
  },
  {
   "property": "C90",
   "status": "proved",
   "theorems": [
    "Verif.ReachProto.Props.spec_accepted_iff",
    "Verif.ReachProto.Props.execute_iff",
    "Verif.ReachProto.Props.grid_tenths",
    "Verif.ReachProto.Props.message_exact",
    "Verif.ReachProto.Props.optimum_in_grid",
    "Verif.ReachProto.Props.impressions_kept",
    "Verif.ReachProto.Props.outcome_labels",
    "Verif.ReachProto.Props.message_produced_iff",
    "Verif.ReachProto.Props.share_in_percent",
    "Verif.ReachProto.Props.reach_ignores_dates",
    "Verif.ReachProto.Props.curves_ignore_range",
    "Verif.ReachProto.Props.zero_minimum_never_runs",
    "Verif.ReachProto.Props.zero_maximum_ignored",
    "Verif.ReachProto.Props.minimum_above_model_never_runs",
    "Verif.ReachProto.Props.labels_disagree"
   ],
   "note": "The analyzer is a parameter; optimum_in_grid, impressions_kept, outcome_labels and message_produced_iff assume that it computes returns on the grid it is given and reports a best frequency of it (`Faithful`), which C80 proves of the modelled search. Frequencies are exact decimals."
  },
  {
   "property": "C91",
   "status": "proved",
   "theorems": [
    "Verif.NewData.Props.constructed_iff",
    "Verif.NewData.Props.constructed_documented",
    "Verif.NewData.Props.unmodified_iff",
    "Verif.NewData.Props.accepted_iff",
    "Verif.NewData.Props.accepted_iff_used",
    "Verif.NewData.Props.accepted_fixed_iff",
    "Verif.NewData.Props.values_used",
    "Verif.NewData.Props.history_used",
    "Verif.NewData.Props.modified_consistent",
    "Verif.NewData.Props.validated_again",
    "Verif.NewData.Props.counterfactual_accepted_iff",
    "Verif.NewData.Props.indices_exact",
    "Verif.NewData.Props.mask_exact",
    "Verif.NewData.Props.ignored_variable_refused",
    "Verif.NewData.Props.time_count_unchecked",
    "Verif.NewData.Props.time_count_index_error",
    "Verif.NewData.Props.one_date_changes_all"
   ],
   "note": "Contents of tensors are opaque, shapes are modelled. indices_exact and mask_exact need one time coordinate for each period, which the code does not check (findings)."
  },
  {
   "property": "C92",
   "status": "proved",
   "theorems": [
    "Verif.Tables.Props.converts_iff",
    "Verif.Tables.Props.names_exact",
    "Verif.Tables.Props.grid_name",
    "Verif.Tables.Props.diagnostics_exact",
    "Verif.Tables.Props.fit_exact",
    "Verif.Tables.Props.outcome_exact",
    "Verif.Tables.Props.spend_exact",
    "Verif.Tables.Props.roi_exact",
    "Verif.Tables.Props.budget_grid_exact",
    "Verif.Tables.Props.budget_specs_exact",
    "Verif.Tables.Props.budget_results_exact",
    "Verif.Tables.Props.curves_exact",
    "Verif.Tables.Props.reach_grid_exact",
    "Verif.Tables.Props.reach_specs_exact",
    "Verif.Tables.Props.reach_results_exact",
    "Verif.Tables.Props.shares_sum",
    "Verif.Tables.Props.implicit_constraints_omit_reach",
    "Verif.Tables.Props.missing_outcome_refused",
    "Verif.Tables.Props.zero_total_fails",
    "Verif.Tables.Props.similar_names_refused",
    "Verif.Tables.Props.all_channels_second",
    "Verif.Tables.Props.needs_all",
    "Verif.Tables.Props.needs_target"
   ],
   "note": "For messages in which the names of data sets, analyses and channels occur once. Text formatting of dates and warnings are not modelled."
  },
  {
   "property": "C93",
   "status": "proved",
   "theorems": [
    "Verif.UiSpecs.Props.admission_iff",
    "Verif.UiSpecs.Props.accepted_iff",
    "Verif.UiSpecs.Props.blocks_exact",
    "Verif.UiSpecs.Props.paired",
    "Verif.UiSpecs.Props.groups_distinct",
    "Verif.UiSpecs.Props.parts_resolve",
    "Verif.UiSpecs.Props.kpi_not_passed_on",
    "Verif.UiSpecs.Props.grid_names_collide",
    "Verif.UiSpecs.Props.ignored_frequency_refused",
    "Verif.UiSpecs.Props.monthly_parts_unresolved",
    "Verif.UiSpecs.Props.new_data_parts_unresolved",
    "Verif.UiSpecs.Props.marketing_tags_collide"
   ],
   "note": "The specs handed to the processors, not the fitting. New identifiers are given by an arbitrary function. Valid increasing dates with a positive interval."
  },
  {
   "property": "C94",
   "status": "proved",
   "theorems": [
    "Verif.NdArray.Props.accepted_iff",
    "Verif.NdArray.Props.arrays_exact",
    "Verif.NdArray.Props.order_irrelevant",
    "Verif.NdArray.Props.labels_first",
    "Verif.NdArray.Props.organic_never_builds",
    "Verif.NdArray.Props.flat_national_refused",
    "Verif.NdArray.Props.single_geo_refused"
   ],
   "note": "Sessions that assign the coordinates first and then hand over arrays in any order; the findings on organic reach cover every session. Dates whose natural order is the alphabetic one."
  },
  {
   "property": "C95",
   "status": "proved",
   "theorems": [
    "Verif.Calibration.Props.read_iff",
    "Verif.Calibration.Props.interval_narrowest",
    "Verif.Calibration.Props.highVariance_accepted",
    "Verif.Calibration.Props.highVariance_exact",
    "Verif.Calibration.Props.highVariance_units",
    "Verif.Calibration.Props.highVariance_order",
    "Verif.Calibration.Props.implausible_exact",
    "Verif.Calibration.Props.paid_channels",
    "Verif.Calibration.Props.bias_exact",
    "Verif.Calibration.Props.bias_matrix",
    "Verif.Calibration.Props.bias_maximum",
    "Verif.Calibration.Props.bias_units",
    "Verif.Calibration.Props.bias_no_controls",
    "Verif.Calibration.Props.zero_median_passes",
    "Verif.Calibration.Props.wide_interval_passes",
    "Verif.Calibration.Props.reported_defaults",
    "Verif.Calibration.Props.reported_bound_contradicts",
    "Verif.Calibration.Props.constant_channel_passes",
    "Verif.Calibration.Props.documented_direction_reversed"
   ],
   "note": "Draws and spend are finite numbers, one spend per channel; az.hdi and pearsonr as documented. The findings are proved as such."
  },
  {
   "property": "C96",
   "status": "proved",
   "theorems": [
    "Verif.XrLoad.Props.documented_names",
    "Verif.XrLoad.Props.given_accepted",
    "Verif.XrLoad.Props.given_values",
    "Verif.XrLoad.Props.split_accepted",
    "Verif.XrLoad.Props.split_values",
    "Verif.XrLoad.Props.split_no_gap",
    "Verif.XrLoad.Props.one_missing_drops_date",
    "Verif.XrLoad.Props.national_expanded",
    "Verif.XrLoad.Props.national_values",
    "Verif.XrLoad.Props.mapping_values",
    "Verif.XrLoad.Props.mapping_refused",
    "Verif.XrLoad.Props.flat_spend_refused"
   ],
   "note": "The dimensions of the arrays are dimensions of the dataset, as xarray guarantees. Arrays have at most one geo, one time and one channel dimension in this order. The last theorem is a finding."
  },
  {
   "property": "C97",
   "status": "proved",
   "theorems": [
    "Verif.Lookup.Props.names_accepted_iff",
    "Verif.Lookup.Props.scaling_factor",
    "Verif.Lookup.Props.factor_undoes_scaling",
    "Verif.Lookup.Props.factor_refused",
    "Verif.Lookup.Props.control_shadows_channel",
    "Verif.Lookup.Props.parameters_one_decay",
    "Verif.Lookup.Props.parameters_by_channel",
    "Verif.Lookup.Props.parameters_only_channels",
    "Verif.Lookup.Props.tensor_right",
    "Verif.Lookup.Props.label_agrees",
    "Verif.Lookup.Props.dims_right",
    "Verif.Lookup.Props.dims_labelled",
    "Verif.Lookup.Props.dims_once",
    "Verif.Lookup.Props.top_geos",
    "Verif.Lookup.Props.negative_top_geos"
   ],
   "note": "control_shadows_channel and negative_top_geos are findings. The order of geos of equal population is that of the data, which pandas does not promise; top_geos holds for each such order."
  },
  {
   "property": "C98",
   "status": "proved",
   "theorems": [
    "Verif.Lifecycle.Props.call_writes",
    "Verif.Lifecycle.Props.call_reproducible",
    "Verif.Lifecycle.Props.success_independent",
    "Verif.Lifecycle.Props.failure_changes_nothing",
    "Verif.Lifecycle.Props.failed_calls_change_nothing",
    "Verif.Lifecycle.Props.interrupted",
    "Verif.Lifecycle.Props.samples_of_last_fit",
    "Verif.Lifecycle.Props.groups_apart",
    "Verif.Lifecycle.Props.review_current",
    "Verif.Lifecycle.Props.refit_keeps_old_review",
    "Verif.Lifecycle.Props.thinning_misaligns",
    "Verif.Lifecycle.Props.seed_accepted_iff",
    "Verif.Lifecycle.Props.seed_meaning",
    "Verif.Lifecycle.Props.batch_seeds_distinct",
    "Verif.Lifecycle.Props.prior_seeds_distinct",
    "Verif.Lifecycle.Props.next_seed_from_previous"
   ],
   "note": "refit_keeps_old_review and thinning_misaligns are findings; next_seed_from_previous states a limit of the seeds. The kernel and the random libraries are parameters; an ideal generator is one whose splits never collide."
  },
  {
   "property": "C99",
   "status": "proved",
   "theorems": [
    "Verif.Page.Props.page_accepted_iff",
    "Verif.Page.Props.page_period",
    "Verif.Page.Props.shown_end_regular",
    "Verif.Page.Props.shown_end_months",
    "Verif.Page.Props.charts_granularity",
    "Verif.Page.Props.granularity_ignores_cadence",
    "Verif.Page.Props.accuracy_rows",
    "Verif.Page.Props.cells_read",
    "Verif.Page.Props.small_error_shown",
    "Verif.Page.Props.insights_best",
    "Verif.Page.Props.insights_ok_iff",
    "Verif.Page.Props.two_largest_named",
    "Verif.Page.Props.single_named",
    "Verif.Page.Props.infinite_roi_named",
    "Verif.Page.Props.negative_cost_named",
    "Verif.Page.Props.names_alike",
    "Verif.Page.Props.frequency_named",
    "Verif.Page.Props.frequency_ok_iff",
    "Verif.Page.Props.tenths_exact"
   ],
   "note": "shown_end_months, granularity_ignores_cadence, small_error_shown, infinite_roi_named, negative_cost_named and names_alike are findings. The charts and the HTML are not modelled; the sort of the table library is a parameter, any correct sort."
  },
  {
   "property": "C100",
   "status": "proved",
   "theorems": [
    "Verif.ArrayOps.Props.mask_same",
    "Verif.ArrayOps.Props.mask_exact",
    "Verif.ArrayOps.Props.mask_differs",
    "Verif.ArrayOps.Props.split_same",
    "Verif.ArrayOps.Props.split_parts",
    "Verif.ArrayOps.Props.split_unchecked",
    "Verif.ArrayOps.Props.unique_exact",
    "Verif.ArrayOps.Props.unique_order_differs",
    "Verif.ArrayOps.Props.bad_columns_same",
    "Verif.ArrayOps.Props.gather_same",
    "Verif.ArrayOps.Props.gather_out_of_range",
    "Verif.ArrayOps.Props.arange_same",
    "Verif.ArrayOps.Props.lags",
    "Verif.ArrayOps.Props.arange_backwards"
   ],
   "note": "mask_differs, split_unchecked, unique_order_differs, gather_out_of_range and arange_backwards are findings. What the two libraries compute is written from their documentation; axes counted from the back and numbers of parts are not modelled."
  },
  {
   "property": "C101",
   "status": "proved",
   "theorems": [
    "Verif.EdaReport.Props.finding_exact",
    "Verif.EdaReport.Props.summary_cards",
    "Verif.EdaReport.Props.summary_exact",
    "Verif.EdaReport.Props.report_made",
    "Verif.EdaReport.Props.fails_of_data",
    "Verif.EdaReport.Props.reported_fail_refused",
    "Verif.EdaReport.Props.no_fail_sampled",
    "Verif.EdaReport.Props.pair_not_counted",
    "Verif.EdaReport.Props.not_counted",
    "Verif.EdaReport.Props.partners_exact",
    "Verif.EdaReport.Props.attention_callout",
    "Verif.EdaReport.Props.error_callout",
    "Verif.EdaReport.Props.attention_partners",
    "Verif.EdaReport.Props.partner_not_named",
    "Verif.EdaReport.Props.saved",
    "Verif.EdaReport.Props.failed_report_empties_file"
   ],
   "note": "pair_not_counted, not_counted, partner_not_named and failed_report_empties_file are findings. Built on the models of the checks of C69 and C70; charts and texts of the report are not part of this model."
  },
  {
   "property": "C102",
   "status": "proved",
   "theorems": [
    "Verif.EdaCharts.Props.largest_shown",
    "Verif.EdaCharts.Props.inconsistent_shown",
    "Verif.EdaCharts.Props.low_shown",
    "Verif.EdaCharts.Props.note_exact",
    "Verif.EdaCharts.Props.series_exact",
    "Verif.EdaCharts.Props.series_first",
    "Verif.EdaCharts.Props.heatmap_refused",
    "Verif.EdaCharts.Props.heatmap_shows",
    "Verif.EdaCharts.Props.strong_pairs_shown",
    "Verif.EdaCharts.Props.weak_variables_left_out",
    "Verif.EdaCharts.Props.bars_limited",
    "Verif.EdaCharts.Props.bars_all",
    "Verif.EdaCharts.Props.shares_exact",
    "Verif.EdaCharts.Props.boxes_exact",
    "Verif.EdaCharts.Props.geos_exact",
    "Verif.EdaCharts.Props.geos_largest",
    "Verif.EdaCharts.Props.knots_marked"
   ],
   "note": "The selection of rows, variables and geos; text, number format and drawing are not part of this model."
  },
  {
   "property": "C103",
   "status": "proved",
   "theorems": [
    "Verif.DataObject.Props.construct_iff",
    "Verif.DataObject.Props.construct_view",
    "Verif.DataObject.Props.caller_arrays",
    "Verif.DataObject.Props.constructed_shares",
    "Verif.DataObject.Props.copies_exact",
    "Verif.DataObject.Props.deep_isolated",
    "Verif.DataObject.Props.shallow_shared",
    "Verif.DataObject.Props.copy_of_made",
    "Verif.DataObject.Props.refused_yet_relabelled",
    "Verif.DataObject.Props.copy_resets_revenue",
    "Verif.DataObject.Props.dataset_exact",
    "Verif.DataObject.Props.dataset_of_odd_data",
    "Verif.DataObject.Props.scaled_exact"
   ],
   "note": "refused_yet_relabelled, constructed_shares, shallow_shared, copy_resets_revenue and dataset_of_odd_data are findings. Arrays live in a store with references; the checks are those of C26."
  },
  {
   "property": "C104",
   "status": "proved",
   "theorems": [
    "Verif.RunLog.Props.array_recoverable",
    "Verif.RunLog.Props.logging_transparent",
    "Verif.RunLog.Props.model_recorded",
    "Verif.RunLog.Props.model_texts_recorded",
    "Verif.RunLog.Props.second_model_unrecorded",
    "Verif.RunLog.Props.model_run_sound",
    "Verif.RunLog.Props.prior_recorded",
    "Verif.RunLog.Props.posterior_recorded",
    "Verif.RunLog.Props.positional_recorded_as_default",
    "Verif.RunLog.Props.no_metrics_from_model",
    "Verif.RunLog.Props.metric_of_table",
    "Verif.RunLog.Props.metrics_of_previous_fit"
   ],
   "note": "second_model_unrecorded, positional_recorded_as_default, no_metrics_from_model and metrics_of_previous_fit are findings. MLflow itself is modelled by its rule on parameters and by what safe_patch does with exceptions."
  },
  {
   "property": "C105",
   "status": "proved",
   "theorems": [
    "Verif.Publish.Props.quote_roundtrip",
    "Verif.Publish.Props.link_exact",
    "Verif.Publish.Props.warnings_exact",
    "Verif.Publish.Props.rf_alone_not_linked",
    "Verif.Publish.Props.upload_ok_iff",
    "Verif.Publish.Props.upload_exact",
    "Verif.Publish.Props.report_shows_table"
   ],
   "note": "rf_alone_not_linked and the second part of upload_ok_iff are findings. The spreadsheet service is modelled by its rules on titles, identifiers and batches."
  },
  {
   "property": "C106",
   "status": "proved",
   "theorems": [
    "Verif.LegacyKnots.Props.loaded_layout",
    "Verif.LegacyKnots.Props.same_acceptance",
    "Verif.LegacyKnots.Props.ends_added",
    "Verif.LegacyKnots.Props.earlier_chose_more",
    "Verif.LegacyKnots.Props.national_irrelevant",
    "Verif.LegacyKnots.Props.resaved_always_other_knots",
    "Verif.LegacyKnots.Props.resaved_refused",
    "Verif.LegacyKnots.Props.resaved_silently_moved",
    "Verif.LegacyKnots.Props.resaved_171_other_knots"
   ],
   "note": "The resaved theorems are findings. The spline fit, its residuals and the penalties are parameters."
  },
  {
   "property": "C107",
   "status": "proved",
   "theorems": [
    "Verif.Announce.Props.no_effect_iff",
    "Verif.Announce.Props.no_effect_prior_iff",
    "Verif.Announce.Props.named_iff",
    "Verif.Announce.Props.paid_announced_iff",
    "Verif.Announce.Props.unpaid_never_announced",
    "Verif.Announce.Props.absent_channels_silent",
    "Verif.Announce.Props.national_priors",
    "Verif.Announce.Props.total_prior_only_for_defaults",
    "Verif.Announce.Props.accepted_iff",
    "Verif.Announce.Props.national_settings",
    "Verif.Announce.Props.geo_arguments",
    "Verif.Announce.Props.kpi_or_revenue",
    "Verif.Announce.Props.revenue_warning_iff"
   ],
   "note": "unpaid_never_announced, absent_channels_silent, geo_arguments and revenue_warning_iff are findings; no_effect_prior_iff has the organic reach and frequency channels go by the prior type of organic media, as C13 finds. What a sampler does is represented by the distributions it reads."
  },
  {
   "property": "C108",
   "status": "proved",
   "theorems": [
    "Verif.Nested.Props.nested",
    "Verif.Nested.Props.larger_budget",
    "Verif.Nested.Props.lower_target_mroi",
    "Verif.Nested.Props.lower_target_roi",
    "Verif.Nested.Props.same_as_fixed_budget",
    "Verif.Nested.Props.target_mroi_optimal",
    "Verif.Nested.Props.lower_target",
    "Verif.Nested.Props.zero_budget_is_historical",
    "Verif.Nested.Props.larger_budget_less_spent"
   ],
   "note": "zero_budget_is_historical and larger_budget_less_spent are findings. Arithmetic is exact; ROIs are rounded to 8 decimals as in the code."
  },
  {
   "property": "C109",
   "status": "proved",
   "theorems": [
    "Verif.ScenarioText.Props.rnd_err",
    "Verif.ScenarioText.Props.rnd_mono",
    "Verif.ScenarioText.Props.lower_shown",
    "Verif.ScenarioText.Props.upper_shown",
    "Verif.ScenarioText.Props.whole_percent",
    "Verif.ScenarioText.Props.understated",
    "Verif.ScenarioText.Props.default_limits",
    "Verif.ScenarioText.Props.limits_hold_for_all",
    "Verif.ScenarioText.Props.equal_list_not_named",
    "Verif.ScenarioText.Props.historical_spend",
    "Verif.ScenarioText.Props.shares_not_historical",
    "Verif.ScenarioText.Props.historical_budget",
    "Verif.ScenarioText.Props.two_ends",
    "Verif.ScenarioText.Props.report_channels"
   ],
   "note": "understated, equal_list_not_named, shares_not_historical and two_ends are findings. The percentages are computed with the rounding of 64-bit floating point numbers (no overflow, no denormal numbers); dates are day numbers."
  },
  {
   "property": "C110",
   "status": "proved",
   "theorems": [
    "Verif.Archive.Props.samples_kept",
    "Verif.Archive.Props.refused_iff",
    "Verif.Archive.Props.info_present",
    "Verif.Archive.Props.converged_iff",
    "Verif.Archive.Props.agrees_with_check",
    "Verif.Archive.Props.diverged_recorded_converged"
   ],
   "note": "diverged_recorded_converged is a finding. NetCDF is a parameter with the laws of Spec.Archive (what is written can be read up to a normal form); R-hat values are inputs."
  },
  {
   "property": "C111",
   "status": "proved",
   "theorems": [
    "Verif.Engine.Props.env_jax_iff",
    "Verif.Engine.Props.env_warns_iff",
    "Verif.Engine.Props.only_reload",
    "Verif.Engine.Props.selected_last",
    "Verif.Engine.Props.refused_changes_nothing",
    "Verif.Engine.Props.after_reload",
    "Verif.Engine.Props.always_known",
    "Verif.Engine.Props.x64_variable_ignored",
    "Verif.Engine.Props.reported_precision_stale",
    "Verif.Engine.Props.load_warns_iff",
    "Verif.Engine.Props.old_file_silent",
    "Verif.Engine.Props.provenance_lost",
    "Verif.Engine.Props.result_type_iff",
    "Verif.Engine.Props.result_type_numpy",
    "Verif.Engine.Props.result_type_order",
    "Verif.Engine.Props.resolve_dtype",
    "Verif.Engine.Props.no_wide",
    "Verif.Engine.Props.warns_iff",
    "Verif.Engine.Props.warned_single",
    "Verif.Engine.Props.wide_kept",
    "Verif.Engine.Props.strings_kept",
    "Verif.Engine.Props.whole_numbers_narrowed",
    "Verif.Engine.Props.flatten_order",
    "Verif.Engine.Props.children_no_strings",
    "Verif.Engine.Props.roundtrip"
   ],
   "note": "x64_variable_ignored, reported_precision_stale, provenance_lost, whole_numbers_narrowed and the second half of result_type_numpy are findings, and only_reload includes one (set_backend alone has no effect). Modules that keep objects of the old backend after a reload are not modelled."
  },
  {
   "property": "C112",
   "status": "proved",
   "theorems": [
    "Verif.OldFiles.Props.legacy_prior",
    "Verif.OldFiles.Props.legacy_labels",
    "Verif.OldFiles.Props.legacy_loads_iff",
    "Verif.OldFiles.Props.legacy_warning_iff",
    "Verif.OldFiles.Props.absent_bound_is_zero",
    "Verif.OldFiles.Props.zero_bound_not_reported",
    "Verif.OldFiles.Props.legacy_file",
    "Verif.OldFiles.Props.legacy_file_loads_iff",
    "Verif.OldFiles.Props.legacy_file_warning_iff",
    "Verif.OldFiles.Props.legacy_first",
    "Verif.OldFiles.Props.newer_file",
    "Verif.OldFiles.Props.empty_container_not_checked",
    "Verif.OldFiles.Props.eda_round_trip",
    "Verif.OldFiles.Props.eda_loaded",
    "Verif.OldFiles.Props.eda_absent",
    "Verif.OldFiles.Props.absent_vif_threshold_is_zero",
    "Verif.OldFiles.Props.pickle_round_trip",
    "Verif.OldFiles.Props.state_free",
    "Verif.OldFiles.Props.mixture_not_packed"
   ],
   "note": "absent_bound_is_zero, zero_bound_not_reported, empty_container_not_checked, absent_vif_threshold_is_zero and mixture_not_packed are findings. The checks made by the constructors of distributions are not modelled."
  },
  {
   "property": "C113",
   "status": "proved",
   "theorems": [
    "Verif.CurveTable.Props.curves_accepted_iff",
    "Verif.CurveTable.Props.curves_coordinates",
    "Verif.CurveTable.Props.curves_points",
    "Verif.CurveTable.Props.curves_at_optimum",
    "Verif.CurveTable.Props.optimal_curve_highest",
    "Verif.CurveTable.Props.prior_curves_use_posterior",
    "Verif.CurveTable.Props.prior_curve_not_at_prior_optimum"
   ],
   "note": "The whole of response_curves: all channels and multipliers, intervals, distribution and optimal frequency. Findings: prior_curves_use_posterior (prior curves at the optimal frequency use the posterior's frequencies and need posterior draws), prior_curve_not_at_prior_optimum (a witness)."
  },
  {
   "property": "C114",
   "status": "proved",
   "theorems": [
    "Verif.Currency.Props.code_variants",
    "Verif.Currency.Props.normal_form",
    "Verif.Currency.Props.no_code",
    "Verif.Currency.Props.symbol_of_clean",
    "Verif.Currency.Props.blank_or_clean",
    "Verif.Currency.Props.symbol_not_empty",
    "Verif.Currency.Props.code_checked",
    "Verif.Currency.Props.loader_keeps_code",
    "Verif.Currency.Props.saving_keeps_symbol",
    "Verif.Currency.Props.empty_code_lost",
    "Verif.Currency.Props.default_is_symbol_of_data",
    "Verif.Currency.Props.table_currency",
    "Verif.Currency.Props.report_amounts",
    "Verif.Currency.Props.other_figures",
    "Verif.Currency.Props.warns_iff_given",
    "Verif.Currency.Props.report_always_warns",
    "Verif.Currency.Props.spend_bars",
    "Verif.Currency.Props.chart_size",
    "Verif.Currency.Props.pie_shares",
    "Verif.Currency.Props.unchanged_channel_red",
    "Verif.Currency.Props.results_page_in_dollars",
    "Verif.Currency.Props.page_and_report_differ"
   ],
   "note": "The tables of babel are parameters; capital letters are those of ASCII. Findings: results_page_in_dollars and page_and_report_differ (the results page writes dollars whatever the currency), report_always_warns (the report of an optimization warns about an argument that was not given), unchanged_channel_red, empty_code_lost."
  },
  {
   "property": "C115",
   "status": "proved",
   "theorems": [
    "Verif.TensorFilter.Props.channel_axis_iff",
    "Verif.TensorFilter.Props.flexible_axis_iff",
    "Verif.TensorFilter.Props.filtered",
    "Verif.TensorFilter.Props.selected",
    "Verif.TensorFilter.Props.flags_of_tensor_refused",
    "Verif.TensorFilter.Props.misread_iff",
    "Verif.TensorFilter.Props.misread_sum"
   ],
   "note": "Entries are real numbers and an index out of range is an error, as in TensorFlow on a CPU. Findings: flags_of_tensor_refused (flags of the documented length are refused), misread_iff and misread_sum (a tensor without channel axis can be taken for one with a channel axis, silently summing other axes)."
  },
  {
   "property": "C116",
   "status": "proved",
   "theorems": [
    "Verif.HealthCard.Props.one_row_each",
    "Verif.HealthCard.Props.check_names_distinct",
    "Verif.HealthCard.Props.row_shows",
    "Verif.HealthCard.Props.made",
    "Verif.HealthCard.Props.shift_counts",
    "Verif.HealthCard.Props.roi_counts",
    "Verif.HealthCard.Props.shift_row",
    "Verif.HealthCard.Props.roi_review_names",
    "Verif.HealthCard.Props.names_listed",
    "Verif.HealthCard.Props.verdict_iff",
    "Verif.HealthCard.Props.printed_lines",
    "Verif.HealthCard.Props.checks_status",
    "Verif.HealthCard.Props.autoescape_iff",
    "Verif.HealthCard.Props.jinja_not_escaped",
    "Verif.HealthCard.Props.page_shows",
    "Verif.HealthCard.Props.markup_unescaped",
    "Verif.HealthCard.Props.geo_chip",
    "Verif.HealthCard.Props.parts_run_together",
    "Verif.HealthCard.Props.passing_names_nothing",
    "Verif.HealthCard.Props.nan_reported_converged"
   ],
   "note": "Findings: the page is described as sanitized but the templates are named *.html.jinja, for which jinja2.select_autoescape() is off, so channel and geo names with markup are written as they are; the parts of the ROI text are glued together; a check that passes under a limit names none of the channels that did not; R-hats that are all NaN are reported as below the threshold. The fixed advice texts are shortened, white space between tags and the fixed frame of the page are left out."
  },
  {
   "property": "C117",
   "status": "proved",
   "theorems": [
    "Verif.AlphaPrior.Props.range_iff",
    "Verif.AlphaPrior.Props.mass_kept",
    "Verif.AlphaPrior.Props.exponent_prior",
    "Verif.AlphaPrior.Props.weights_of_draw",
    "Verif.AlphaPrior.Props.order_reversed",
    "Verif.AlphaPrior.Props.density_correct",
    "Verif.AlphaPrior.Props.point_mass_slips"
   ],
   "note": "Distributions are measures on the reals; the bijectors and the transformed distribution are those of TensorFlow Probability as documented. Findings: the function does not check that its argument has no negative values (range_iff is an equivalence); a point mass at alpha = 1 is refused, but the same prior declared as exponent zero is accepted."
  },
  {
   "property": "C118",
   "status": "proved",
   "theorems": [
    "Verif.EdaStack.Props.stack_merge",
    "Verif.EdaStack.Props.stack_distinct",
    "Verif.EdaStack.Props.treatment_control_rows",
    "Verif.EdaStack.Props.spend_units_aligned",
    "Verif.EdaStack.Props.raw_media_rows",
    "Verif.EdaStack.Props.without_non_media_rows",
    "Verif.EdaStack.Props.controls_rows",
    "Verif.EdaStack.Props.missing_refused",
    "Verif.EdaStack.Props.out_of_order"
   ],
   "note": "Of xarray: the dimensions of a merged dataset or of selected variables come in the order of their first occurrence; arrays of a merge agree on shared coordinates. Finding: the names are taken from the dimensions and the series from the variables, so a dataset (of a direct caller of the function; none of the engine's own) with the two in different orders is mislabelled silently."
  },
  {
   "property": "C119",
   "status": "proved",
   "theorems": [
    "Verif.EdaTables.Props.own_values",
    "Verif.EdaTables.Props.accepted_iff",
    "Verif.EdaTables.Props.values_of_variables",
    "Verif.EdaTables.Props.pooled",
    "Verif.EdaTables.Props.rows_largest",
    "Verif.EdaTables.Props.note_iff",
    "Verif.EdaTables.Props.adequacy"
   ],
   "note": "The R-squared of a group of series is any function of the group; the module EdaMore has the function for one series. The format of the numbers and the order of equal numbers are not modelled. Finding: the names of controls are not checked against those of the channels, nor against each other; a control with the name of a channel is accepted and shares one R-squared with it."
  }
 ]
}