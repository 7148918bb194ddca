{"id": "C01", "title": "Adstock is the weighted moving sum of past media", "statement": "Applying the adstock transformation to a media series returns, for each of the last n_times_output periods t, the sum over lags l = 0..min(max_lag+1, n_media_times)-1 of weight(l) times media at t-l, where media before the first recorded period counts as zero.", "quantifier": "every media series, every max_lag >= 0, every 1 <= n_times_output <= n_media_times, every decay function", "why_tests_cant": "the code slices, pads and reverses windows; an off-by-one shows only for particular combinations of series length, max_lag and output length, of which there are unboundedly many", "anchors": ["meridian/model/adstock_hill.py:_adstock", "meridian/backend/__init__.py:_tf_adstock_process", "meridian/model/adstock_hill.py:AdstockTransformer.forward"]}
{"id": "C02", "title": "Adstock weights are a probability distribution over lags", "statement": "For every retention parameter alpha in [0,1] (geometric) or (0,1] (binomial) and every window, the normalized decay weights are non-negative, sum to one, and never increase with the lag.", "quantifier": "every alpha in the parameter's support, every window length >= 1", "why_tests_cant": "alpha is a real parameter drawn by MCMC; the endpoints (0**0) and every window length must be right", "anchors": ["meridian/model/adstock_hill.py:compute_decay_weights"]}
{"id": "C03", "title": "Adstock is causal and has bounded memory", "statement": "The adstocked value at period t does not depend on media after t, nor on media more than max_lag periods before t; prepending more history than max_lag changes nothing.", "quantifier": "every pair of media series that agree on the window, every max_lag, every output period", "why_tests_cant": "a relational property over pairs of unbounded series", "anchors": ["meridian/model/adstock_hill.py:_adstock"]}
{"id": "C04", "title": "Adstock is linear, monotone and stays within the range of the media", "statement": "Adstock of a non-negative combination of two series is the combination of their adstocks; a pointwise larger series has a pointwise larger adstock; and non-negative media bounded by M give adstock values in [0, M].", "quantifier": "every pair of series of equal length, every scalar, all weights that are non-negative and sum to one", "why_tests_cant": "universally quantified algebraic law over real vectors of any length", "anchors": ["meridian/model/adstock_hill.py:_adstock"]}
{"id": "C05", "title": "Hill saturation is bounded, increasing and half-saturated at ec", "statement": "For ec > 0 and slope > 0 the Hill transform of non-negative media is 0 at 0, is in [0,1), is strictly increasing in media, and equals 1/2 at media = ec.", "quantifier": "every non-negative media value, every positive ec and slope", "why_tests_cant": "real-valued parameters and inputs", "anchors": ["meridian/model/adstock_hill.py:_hill", "meridian/model/adstock_hill.py:HillTransformer.forward"]}
{"id": "C06", "title": "Both backends compute the same adstock", "statement": "The convolution-based JAX implementation and the window/einsum TensorFlow implementation of the adstock process return the same values.", "quantifier": "every media tensor, every weight tensor, every window and output length with matching shapes", "why_tests_cant": "equality of two differently indexed algorithms for all sizes", "anchors": ["meridian/backend/__init__.py:_tf_adstock_process", "meridian/backend/__init__.py:_jax_adstock_process_conv", "meridian/backend/__init__.py:_jax_adstock_process_cpu"]}
{"id": "C07", "title": "Data transformers invert", "statement": "For the KPI, media and control/non-media transformers, inverse(forward(x)) = x for every x, and forward(inverse(y)) = y, whenever the stored scale factors are non-zero; differences on the model scale map to differences on the original scale.", "quantifier": "every tensor, every population vector with non-zero entries, every transformer with non-zero spread", "why_tests_cant": "algebraic identity over all real tensors; degenerate (zero) scales must be excluded exactly", "anchors": ["meridian/model/transformers.py:KpiTransformer", "meridian/model/transformers.py:MediaTransformer", "meridian/model/transformers.py:CenteringAndScalingTransformer"]}
{"id": "C08", "title": "Scaled training data are standardised", "statement": "The KPI (and each control / non-media variable) the model is fitted to has mean zero, and mean square one whenever the population-scaled data are not constant; media are scaled so that the scaling factor is population times a positive median when media are non-negative.", "quantifier": "every KPI/control/media tensor and positive population", "why_tests_cant": "statistics of arbitrary real data", "anchors": ["meridian/model/transformers.py:KpiTransformer.__init__", "meridian/model/transformers.py:CenteringAndScalingTransformer.__init__", "meridian/model/transformers.py:MediaTransformer.__init__"]}
{"id": "C09", "title": "Knot weights are an interpolating partition of unity", "statement": "For every time point the knot weights are non-negative and sum to one, at most two knots (the neighbours of the time point) have non-zero weight, the weight at a knot location is one for that knot, and points outside the knot range take the value of the nearest end knot.", "quantifier": "every strictly increasing sequence of knot locations, every time point", "why_tests_cant": "quantified over all knot layouts and times", "anchors": ["meridian/model/knots.py:l1_distance_weights", "meridian/model/knots.py:_find_left_knot_indices"]}
{"id": "C10", "title": "Knot configuration is normalised into a consistent layout", "statement": "Whatever form `knots` is given in (None, integer, list of distinct locations in any order), the resulting knot locations are strictly increasing, lie in [0, n_times-1], their number equals the reported n_knots, and the weight matrix has one row per knot with columns summing to one; an integer is accepted exactly when 1 <= knots <= n_times (< n_times for a national model), a list exactly when every location is inside the data; None and the empty list mean one knot per period (one knot for a national model). A list with repeated locations is accepted with an inconsistent layout.", "quantifier": "every n_times, national or geo data, every knots argument", "why_tests_cant": "decision table over unbounded integers and lists", "anchors": ["meridian/model/knots.py:get_knot_info"]}
{"id": "C11", "title": "Fixed-budget optimisation never exceeds the budget", "statement": "With a fixed budget, the spend allocation returned by the optimizer's grid search has total at most the (rounded) budget handed to the search - the sum of the rounded channel spends -, provided the sum of lower bounds does, and with diminishing returns in every channel it is spent in full: the optimized total is exactly that sum. Not guaranteed, with proof: the requested budget itself can be exceeded by the rounding; without diminishing returns the search may stop at once and leave the whole allowed decrease unspent.", "quantifier": "every spend grid, every incremental outcome grid, every budget", "why_tests_cant": "greedy loop of unbounded length over arbitrary grids", "anchors": ["meridian/analysis/optimizer.py:OptimizationGrid._grid_search", "meridian/analysis/optimizer.py:_exceeds_optimization_constraints"]}
{"id": "C12", "title": "Optimised spend of every channel is a grid point inside its bounds", "statement": "Each channel's optimised spend is one of the grid values of that channel, hence between that channel's lower and upper spend bound.", "quantifier": "every grid produced from bounds and step, every outcome grid, every scenario", "why_tests_cant": "invariant of the greedy loop", "anchors": ["meridian/analysis/optimizer.py:OptimizationGrid._grid_search", "meridian/analysis/optimizer.py:OptimizationGrid.trim_grids", "meridian/analysis/optimizer.py:BudgetOptimizer._create_grids"]}
{"id": "C13", "title": "The grid search terminates and ends only when nothing more can be bought", "statement": "The greedy loop stops after at most (number of grid rows x channels) purchases, and when it stops either no candidate purchase remains or the best remaining purchase breaks the scenario's constraint.", "quantifier": "every grid and scenario", "why_tests_cant": "termination and stopping condition of a data-dependent loop", "anchors": ["meridian/analysis/optimizer.py:OptimizationGrid._grid_search"]}
{"id": "C14", "title": "Greedy allocation is optimal for concave response curves", "statement": "If every channel's incremental outcome is concave in spend on a common step grid, the allocation returned for a fixed budget has at least the total incremental outcome of every other grid allocation whose total spend is no larger.", "quantifier": "every number of channels, every concave grid, every budget, every competing allocation", "why_tests_cant": "optimality against all competing allocations cannot be sampled", "anchors": ["meridian/analysis/optimizer.py:OptimizationGrid._grid_search"]}
{"id": "C15", "title": "Flexible-budget optimisation respects the target", "statement": "With a target mROI every purchase beyond the lower bounds has a marginal ROI at or above the target; with a target ROI the last purchase was made from an allocation whose total ROI, after the purchase, met the target - and the returned allocation can nevertheless miss the target.", "quantifier": "every grid, every target", "why_tests_cant": "history-dependent invariant", "anchors": ["meridian/analysis/optimizer.py:_exceeds_optimization_constraints", "meridian/analysis/optimizer.py:OptimizationGrid._grid_search"]}
{"id": "C16", "title": "Spend bounds bracket current spend", "statement": "The lower and upper spend bounds used for optimisation are the rounded (1-lower)*spend and (1+upper)*spend, with 0 <= lower bound <= upper bound for every channel, and constraint arguments of the wrong length or out of range are rejected.", "quantifier": "every spend vector, every scalar or per-channel constraint, every rounding factor", "why_tests_cant": "rounding at arbitrary decimal positions over all reals", "anchors": ["meridian/analysis/optimizer.py:get_optimization_bounds", "meridian/analysis/optimizer.py:_validate_spend_constraints", "meridian/analysis/optimizer.py:_get_spend_bounds"]}
{"id": "C17", "title": "The optimisation step size honours gtol", "statement": "The optimisation step derived from gtol is a power of ten: the smallest one above gtol times the budget (at least 1), for every accepted gtol; the documented guarantee that the step is at most gtol times the budget does not hold.", "quantifier": "every positive budget and gtol in (0,1)", "why_tests_cant": "digit-counting code over all reals", "anchors": ["meridian/analysis/optimizer.py:get_round_factor"]}
{"id": "C18", "title": "Grid construction covers exactly the allowed spend range", "statement": "For each channel the optimisation grid holds the arithmetic progression from the lower bound to the upper bound inclusive with the given step, followed only by missing entries; the outcome at a row is the channel's response at that spend.", "quantifier": "every vector of bounds and step", "why_tests_cant": "row counts and padding for arbitrary bounds", "anchors": ["meridian/analysis/optimizer.py:BudgetOptimizer._create_grids", "meridian/analysis/optimizer.py:BudgetOptimizer._update_incremental_outcome_grid"]}
{"id": "C19", "title": "Re-using a grid with tighter bounds equals building it fresh", "statement": "Trimming a stored grid to new bounds keeps, for each channel, exactly the rows whose spend lies within the new bounds, in order, starting at the first row.", "quantifier": "every grid with increasing spends and every pair of bounds on the grid", "why_tests_cant": "array index surgery over arbitrary shapes", "anchors": ["meridian/analysis/optimizer.py:OptimizationGrid.trim_grids", "meridian/analysis/optimizer.py:OptimizationGrid.check_optimization_bounds"]}
{"id": "C20", "title": "A supplied optimisation grid is only accepted if it matches the request", "statement": "A supplied `optimization_grid` is used exactly if its flags, maximal frequency, first and last dates, channels and set of geos are those of the request and it covers the bounds of the request, computed on the grid's step from the historical spend of all geos; otherwise the result is that of a call without a grid. A grid created for a request without selected geos is used for this request. Not guaranteed, with witnesses: a grid for selected geos can be rejected by the request it was made for, or accepted and then fail; a grid made from other new data is used.", "quantifier": "every pair of grid metadata and request", "why_tests_cant": "decision logic over all combinations of options", "anchors": ["meridian/analysis/optimizer.py:BudgetOptimizer._validate_grid"]}
{"id": "C21", "title": "Budget arguments are validated by scenario", "statement": "A fixed-budget request with a target metric, a non-positive budget, or a flexible-budget request with a budget, with no target or with two targets, is rejected; all other combinations are accepted.", "quantifier": "every combination of fixed_budget, budget, target_roi, target_mroi", "why_tests_cant": "full decision table including the zero/None edge cases", "anchors": ["meridian/analysis/optimizer.py:_validate_budget"]}
{"id": "C22", "title": "Flighting tensors: population allocation preserves totals and spend matches units", "statement": "The tensors created for optimisation from a flighting pattern: values without a geo axis are split over the geos in proportion to population and add up to what was given, values with a geo axis are unchanged, costs and frequencies given per channel or per period are repeated; media units times cost is the spend in every cell, and reach times frequency times cost is the RF spend in every cell with non-zero cost and frequency (a zero frequency silently drops paid impressions). Combinations and sizes that do not fit are rejected.", "quantifier": "every population vector with non-zero sum, every combination of tensors of any size", "why_tests_cant": "arithmetic identities over all real vectors", "anchors": ["meridian/analysis/optimizer.py:BudgetOptimizer._allocate_tensor_by_population", "meridian/analysis/optimizer.py:_expand_tensor", "meridian/data/input_data.py:_allocate_spend"]}
{"id": "C23", "title": "Date-range selection returns exactly the dates in the closed interval", "statement": "Selecting times by start and end date returns precisely the coordinates d with start <= d <= end in order (open ends when None), or rejects dates that are not coordinates / an end before the start.", "quantifier": "every increasing coordinate list and every start/end", "why_tests_cant": "quantified over all calendars and intervals", "anchors": ["meridian/data/time_coordinates.py:TimeCoordinates.expand_selected_time_dims", "meridian/data/time_coordinates.py:TimeCoordinates.get_selected_dates"]}
{"id": "C24", "title": "Period bounds tile the time axis for fixed and day-of-month cadences", "statement": "The [start,end) period reported for each time coordinate starts at that coordinate and ends at the next one, so consecutive periods neither overlap nor leave gaps, for an axis with equal gaps that is not read as a calendar cadence and for a monthly/quarterly/yearly axis whose dates share a day of the month of at most 28. Outside these cases (month-end dates, 28-day gaps) periods overlap or leave gaps.", "quantifier": "every regular weekly/daily/monthly coordinate list and every selection", "why_tests_cant": "calendar arithmetic over arbitrary dates", "anchors": ["meridian/data/time_coordinates.py:TimeCoordinates.get_period_bounds"]}
{"id": "C25", "title": "Time coordinates must be regular and in order", "statement": "A time axis is accepted exactly when its dates never decrease (a repeated date is accepted), and its cadence is reported as regular exactly if the gaps are equal or all monthly/quarterly/yearly in length.", "quantifier": "every list of dates", "why_tests_cant": "acceptance predicate over all lists", "anchors": ["meridian/data/time_coordinates.py:TimeCoordinates.__post_init__", "meridian/data/time_coordinates.py:TimeCoordinates._is_regular_time_index", "meridian/data/time_coordinates.py:TimeCoordinates.interval_days"]}
{"id": "C26", "title": "Input data validation accepts exactly consistent data", "statement": "An InputData object is created exactly if: no value is missing; the KPI type is known; revenue per KPI is not zero everywhere; every array has its name and its set of dimensions; all arrays but the spend arrays have the KPI's geos in the same order, each once; controls, revenue per KPI and non-media treatments have as many times as the KPI; arrays of the same channel type have the same channels in the same order; channel names are unique across channel types and there is a paid channel; time labels are dates, KPI and media times are regularly spaced and no media array has fewer times than the KPI; KPI, revenue per KPI, spend, reach and frequency are not negative. With a revenue KPI, revenue per KPI is one whatever was given. Not checked, so accepted: the order of dimensions, the geos and times of spend, the dates of controls and of media, the sign of media units, media without spend and reach without frequency.", "quantifier": "every combination of present/absent arrays and every value", "why_tests_cant": "conjunction of checks over unbounded data; a missed combination is invisible to sampling", "anchors": ["meridian/data/input_data.py:InputData.__post_init__", "meridian/data/input_data.py:InputData._validate_no_negative_values", "meridian/data/input_data.py:InputData._validate_times", "meridian/data/input_data.py:InputData._validate_media_channels"]}
{"id": "C27", "title": "Channel arguments are ordered by channel name, not by call order", "statement": "Arguments given by channel name are returned as a list aligned with the channel coordinate, whatever order they are given in; every channel gets its own value; without a default the names must be exactly the channels, with a default missing ones take it and unknown names are silently ignored. Decay and saturation functions given by channel name reach exactly these channels, the others get the default, and a name that is no channel or a value that is no decay function is rejected.", "quantifier": "every channel coordinate and every keyword mapping", "why_tests_cant": "permutation invariance over all mappings", "anchors": ["meridian/data/arg_builder.py:OrderedListArgumentBuilder.__call__"]}
{"id": "C28", "title": "Builder components may be added in any order and are aligned", "statement": "Setting components on a new builder and building succeeds exactly if the components fit together and the required ones are there, and gives the same result whichever order they were set in, if natural sorting tells their labels apart; all components share the same sorted geos and times, keep their own values under their own labels, and the times are the last media times. Not guaranteed, with proofs: with geos such as \"1\" and \"01\" the order of the geos depends on the order of the calls; a component rejected for its geos or times stays in the builder, cannot be replaced, and a later build uses it, silently dropping its unknown geos.", "quantifier": "every set of components, every permutation of setter calls and every builder state", "why_tests_cant": "order independence over all permutations and histories of failed calls", "anchors": ["meridian/data/input_data_builder.py:InputDataBuilder.build", "meridian/data/input_data_builder.py:InputDataBuilder._normalize_coords", "meridian/data/input_data_builder.py:InputDataBuilder._validate_lagged_media"]}
{"id": "C29", "title": "Spend without geo/time detail is allocated proportionally and conserves totals", "statement": "When spend is given only per channel, the imputed geo/time spend is the one proportional to media units within the channel and model period that sums back to the given channel total; the aggregated spend over a selection of geos and times equals the sum over the selected cells of that spend, the aggregated spend over a calibration period the sum over the marked periods; channels are listed media first, with their names. A channel without media units gets a non-finite spend, and data with media spend per geo and RF spend per channel (or the reverse) have no total spend.", "quantifier": "every media tensor with positive channel totals, every spend vector, every selection", "why_tests_cant": "algebraic identity over real tensors of any size", "anchors": ["meridian/data/input_data.py:_allocate_spend", "meridian/analysis/analyzer.py:Analyzer._impute_and_aggregate_spend", "meridian/data/input_data.py:_aggregate_spend"]}
{"id": "C30", "title": "ROI priors are honoured exactly", "statement": "When a channel has an ROI (or mROI, or contribution) prior, the coefficients derived from a sampled value make the channel's total incremental outcome (against the prior's counterfactual) equal exactly that value times the prior's denominator, for normal and log-normal media effects; without a calibration period the ROI and marginal ROI that the analyzer reports for the draw are exactly the sampled values. Exceptions in the code: channels with saturation 'none' under an mROI prior or a calibration period, and non-media treatments scaled by population.", "quantifier": "every sampled value, every transformed-media tensor with non-zero weighted sum, every geo deviation, every eta", "why_tests_cant": "algebraic identity involving exp/log for all real parameters", "anchors": ["meridian/model/equations.py:ModelEquations.calculate_beta_x", "meridian/model/posterior_sampler.py:PosteriorMCMCSampler", "meridian/model/media.py:build_media_tensors"]}
{"id": "C31", "title": "Prior and posterior samplers use the same parameterisation", "statement": "For equal sampled parameters the prior sampler and the posterior sampler derive the same treatment coefficients, time and geo effects for every treatment type and prior type if organic media and organic reach and frequency have the same prior type (otherwise the prior sampler uses the wrong one), and analysis uses the same non-media baseline as the samplers for channels that are not scaled by population (for the others the samplers scale it twice).", "quantifier": "every combination of prior types and data", "why_tests_cant": "cross-module agreement over all configurations", "anchors": ["meridian/model/prior_sampler.py:PriorDistributionSampler", "meridian/model/posterior_sampler.py:PosteriorMCMCSampler", "meridian/analysis/tensors.py:DataTensorsBuilder.build_counterfactual_inputs"]}
{"id": "C32", "title": "Held-out observations do not influence the posterior", "statement": "The log density of the model given parameters does not depend on the transformed KPI at held-out cells, and equals the Gaussian log-likelihood of the remaining cells; the mean and standard deviation used to transform the KPI are however those of all cells.", "quantifier": "every holdout mask, every KPI tensor, every parameter value", "why_tests_cant": "independence from arbitrary real values", "anchors": ["meridian/model/posterior_sampler.py:PosteriorMCMCSampler._joint_dist_base_logic"]}
{"id": "C33", "title": "The baseline geo has zero geo effect and the others keep theirs", "statement": "The geo effect vector has zero at the baseline geo and the sampled effects, in order, at all the other geos; the baseline geo is the one asked for by index or name, or else the first one with the largest population, and an unknown geo is rejected.", "quantifier": "every number of geos and baseline index, every sampled vector", "why_tests_cant": "index manipulation at the ends of the list", "anchors": ["meridian/model/posterior_sampler.py:_compute_tau_g", "meridian/model/context.py:ModelContext.baseline_geo_idx"]}
{"id": "C34", "title": "Batching never changes results", "statement": "Computing draws in batches of any positive size, and sampling chains in any number of calls, gives every chain and draw the value computed from the parameters of this chain and draw alone, in the same order as computing everything at once; no draw is lost or duplicated, the burn-in is dropped, trace metrics stay aligned with their draws, the reconstructed variables do not depend on seeds; non-positive batch sizes are rejected.", "quantifier": "every number of draws, every batch size, every per-draw function", "why_tests_cant": "all (n, batch) pairs including non-dividing ones", "anchors": ["meridian/analysis/analyzer.py:Analyzer._yield_batched_distribution_tensors", "meridian/model/posterior_sampler.py:PosteriorMCMCSampler._reconstruct_posteriors", "meridian/model/posterior_sampler.py:_flatten_chain_and_draw_dims"]}
{"id": "C35", "title": "Baseline plus channel contributions equals the expected outcome", "statement": "For every draw, geo and time, the expected outcome equals the baseline outcome (all treatments at their baseline) plus the sum of all channels' incremental outcomes, in KPI and in revenue.", "quantifier": "every parameter draw and dataset, all channel types, all populations, all baselines", "why_tests_cant": "identity linking two separately implemented computations for all inputs", "anchors": ["meridian/analysis/analyzer.py:Analyzer.expected_outcome", "meridian/analysis/analyzer.py:Analyzer.incremental_outcome", "meridian/analysis/tensors.py:DataTensorsBuilder.build_baseline_inputs", "meridian/analysis/tensors.py:DataTensorsBuilder.build_counterfactual_inputs"]}
{"id": "C36", "title": "Selection and aggregation commute with addition over cells", "statement": "An aggregated metric over selected geos and times is the sum over exactly the selected cells; it does not depend on the order or repetition of the names in the selection; unknown names are rejected.", "quantifier": "every tensor, every selection of names or boolean mask", "why_tests_cant": "all subsets and orders", "anchors": ["meridian/analysis/analyzer.py:Analyzer.filter_and_aggregate_by_indices", "meridian/analysis/tensors.py:DataTensorsBuilder._resolve_geo_indices", "meridian/analysis/tensors.py:DataTensorsBuilder._resolve_time_indices"]}
{"id": "C37", "title": "Per-geo results carry the right labels", "statement": "When results are returned per geo or per time for a selection, the coordinate label of each entry names the geo/time the entry was computed for: always for the xarray incremental outcome and for times, and for the per-geo summary tables when the geos are selected in data order; selected in another order, summary_metrics and baseline_summary_metrics attach the labels in the user's order to values in data order, and a repeated geo is refused.", "quantifier": "every selection in every order", "why_tests_cant": "order-dependence over all permutations", "anchors": ["meridian/analysis/analyzer.py:Analyzer.summary_metrics", "meridian/analysis/analyzer.py:Analyzer.baseline_summary_metrics", "meridian/analysis/analyzer.py:Analyzer.incremental_outcome_xr"]}
{"id": "C38", "title": "ROI, mROI and CPIK are mutually consistent", "statement": "ROI times spend equals incremental outcome, CPIK is the reciprocal of KPI-based ROI, percent-of-spend and percent-of-contribution columns add up to the total column, and the all-channels incremental outcome is the sum of the channels'.", "quantifier": "every outcome and spend tensor with non-zero denominators", "why_tests_cant": "algebraic identities for all reals", "anchors": ["meridian/analysis/analyzer.py:Analyzer.roi", "meridian/analysis/analyzer.py:Analyzer.cpik", "meridian/analysis/analyzer.py:Analyzer._compute_spend_data_aggregate", "meridian/analysis/analyzer.py:Analyzer.compute_incremental_outcome_aggregate"]}
{"id": "C39", "title": "Response curves are anchored and monotone", "statement": "A channel's response curve is zero at zero spend, passes through the channel's incremental outcome at multiplier one, and never decreases in spend when the coefficients are non-negative; spend scales linearly with the multiplier.", "quantifier": "every non-negative media tensor, every positive Hill/adstock parameter, every pair of multipliers", "why_tests_cant": "monotonicity for all real parameters", "anchors": ["meridian/analysis/analyzer.py:Analyzer.response_curves", "meridian/analysis/analyzer.py:Analyzer.incremental_outcome"]}
{"id": "C40", "title": "Optimal frequency keeps impressions and maximises mean ROI on the grid", "statement": "Re-expressing reach and frequency at any frequency keeps impressions (reach x frequency) unchanged, and the optimal frequency reported for each channel attains the maximum mean ROI over the frequency grid.", "quantifier": "every reach/frequency tensor, every positive frequency, every grid", "why_tests_cant": "argmax over arbitrary grids", "anchors": ["meridian/analysis/analyzer.py:Analyzer.optimal_freq", "meridian/analysis/tensors.py:DataTensorsBuilder._build_unscaled_data_tensors"]}
{"id": "C41", "title": "Non-media baselines follow the requested rule", "statement": "For each non-media channel the baseline used is the minimum, the maximum or the given number as requested (default minimum), computed on population-scaled values where population scaling is on; wrong lengths or unknown strings are rejected.", "quantifier": "every treatment tensor and every baseline list", "why_tests_cant": "decision logic and extremum over arbitrary tensors", "anchors": ["meridian/model/equations.py:ModelEquations.compute_non_media_treatments_baseline"]}
{"id": "C42", "title": "Model specification is validated consistently", "statement": "A ModelSpec is accepted exactly for coherent options: effects distribution and prior types within their allowed sets, the common paid-media prior type not combined with the specific ones, calibration periods only with the matching ROI prior and two dimensions, knots not empty, not zero and not combined with automatic selection, known saturation functions; the effective prior types are the specific one, else the common one, else ROI. max_lag and the sign of an integer knots are not checked here.", "quantifier": "every combination of options", "why_tests_cant": "full decision table", "anchors": ["meridian/model/spec.py:ModelSpec.__post_init__", "meridian/model/spec.py:ModelSpec.effective_media_prior_type"]}
{"id": "C43", "title": "Hyperparameters survive a save/load round trip", "statement": "Serialising the hyperparameters of a valid model spec and loading them back gives an equivalent specification (numeric baselines rounded to 32 bits, min/max in lower case, an empty function mapping as the default) for every specification the message can hold, except a list of one knot location: it is loaded as a number of knots, or, for the location 0, cannot be loaded. A numpy integer as baseline geo is lost and a 32-bit numpy float as baseline value cannot be loaded.", "quantifier": "every valid ModelSpec", "why_tests_cant": "round trip over all option values including one-element lists", "anchors": ["meridian/schema/serde/hyperparameters.py:HyperparametersSerde", "meridian/schema/utils/proto_enum_converter.py:ProtoEnumConverter"]}
{"id": "C44", "title": "Saved function registries are verified on load", "statement": "A saved model is loaded without force exactly if every function recorded in it is in the supplied registry, with retrievable source of the recorded hash; unrelated extra functions do not matter, nothing but the source text is compared; aggregation functions come back for their variables, unregistered ones cannot be saved. Not guaranteed, with witnesses: the recorded hashes are those of the first use of the registry object, so functions registered later are not verified.", "quantifier": "every stored registry, every supplied registry and every history of registrations and saves", "why_tests_cant": "all registries", "anchors": ["meridian/schema/serde/function_registry.py:FunctionRegistry.validate"]}
{"id": "C45", "title": "Date bucketing yields disjoint whole buckets", "statement": "Monthly/quarterly/yearly reporting intervals are in order, do not overlap, start at an input date in the first week of the bucket, end at the first input date of the next bucket, and - when neighbouring input dates are less than 270 days apart - contain only input dates of one bucket; without that condition months of different years are merged.", "quantifier": "every strictly ascending list of dates", "why_tests_cant": "calendar inputs of any length and gap", "anchors": ["meridian/schema/utils/date_range_bucketing.py:MonthlyDateRangeGenerator", "meridian/schema/utils/date_range_bucketing.py:QuarterlyDateRangeGenerator", "meridian/schema/utils/date_range_bucketing.py:YearlyDateRangeGenerator"]}
{"id": "C46", "title": "The RF ROI grid stabilisation is backend independent and keeps the final ROI", "statement": "For grids with increasing spend the stabilised RF outcome grid has a constant ROI in every RF column - the outcome at the largest spend over that spend on JAX, the largest outcome over the largest spend on TensorFlow -, other columns are unchanged, and the two backends agree exactly if no outcome exceeds that at the largest spend; a proportional outcome with a non-negative ROI is unchanged, one with a negative ROI is changed on TensorFlow only.", "quantifier": "every spend/outcome grid with any number of rows and channels", "why_tests_cant": "two implementations over all grids", "anchors": ["meridian/backend/__init__.py:_jax_stabilize_rf_roi_grid", "meridian/backend/__init__.py:_tf_stabilize_rf_roi_grid"]}
{"id": "C47", "title": "Banded solver solves the system and the ridge step minimises its objective", "statement": "The LDL-based banded solver used by automatic knot selection returns the solution x of A x = b for every symmetric banded matrix with non-vanishing pivots, and the weighted ridge step built on it returns the minimiser of the penalised least squares objective (squared residuals plus penalty times weighted squared differences of consecutive coefficients); it raises instead of returning when the right-hand side is identically zero (a KPI that is flat in every geo).", "quantifier": "every band width, size, and right-hand side", "why_tests_cant": "numerical linear algebra for all sizes", "anchors": ["meridian/model/knots.py:AKS._ldl", "meridian/model/knots.py:AKS._bandsolve_kernel", "meridian/model/knots.py:AKS._mat2rot"]}
{"id": "C48", "title": "Automatic knot selection honours the request and minimises its criterion", "statement": "Whenever automatic knot selection returns, the knots are strictly increasing time indices of the data, contain every required knot and no excluded one (by default the last internal time), contain the first and last times if there is any knot, have between min and max internal knots, and when restricted contain no other knot left of a required one; the selected set has the smallest information criterion of the allowed candidates, the latest one on ties; contradictory requests are rejected.", "quantifier": "every data length, penalty list, required/excluded/min/max request, and every result of the spline fits", "why_tests_cant": "the claim ranges over all requests and all spline fits", "anchors": ["meridian/model/knots.py:AKS.automatic_knot_selection", "meridian/model/knots.py:AKS.aspline"]}
{"id": "C49", "title": "The mean of the likelihood is the expected outcome that is reported", "statement": "For every draw the mean of the likelihood used for sampling is, on the model's scale, exactly the expected outcome that the analyzer computes from the same draw and the training data.", "quantifier": "every data set, specification and draw", "why_tests_cant": "two separate implementations of the model equation must agree for all parameters and data", "anchors": ["meridian/model/posterior_sampler.py:_joint_dist_base_logic", "meridian/analysis/analyzer.py:Analyzer._get_kpi_means"]}
{"id": "C50", "title": "Options that depend on the data must have the shape of the data", "statement": "A model is created only if the calibration periods have shape (media times, channels of the type), the holdout has shape (times) for one geo and (geos, times) otherwise, and the population scaling flags have one entry per control or non-media treatment; options of these shapes are accepted.", "quantifier": "every data size and every shape of every option", "why_tests_cant": "decision table over unbounded sizes", "anchors": ["meridian/model/context.py:ModelContext._validate_data_dependent_model_spec", "meridian/model/context.py:ModelContext._validate_model_spec_shapes"]}
{"id": "C51", "title": "Loading a data frame puts every number under its geo, time and channel", "statement": "When loading a data frame succeeds, every number in a mapped column is in the result under the geo and time of its row and the channel its column is mapped to, every number of the result comes from such a cell, the population of a geo is the mean over its rows, revenue per KPI is one if the KPI is revenue, and the order of the rows does not matter. Not guaranteed, with proofs: media columns without spend mapping, reach columns without frequency mapping (and the organic ones) and columns without any number are left out without an error; a data frame with initial media-only periods, as the documentation allows, is rejected if the KPI is revenue and a column for the revenue per KPI is given.", "quantifier": "every data frame, every column mapping and every permutation of the rows", "why_tests_cant": "the claim ranges over all frames, mappings and row orders", "anchors": ["meridian/data/load.py:DataFrameDataLoader", "meridian/data/data_frame_input_data_builder.py:DataFrameInputDataBuilder"]}
{"id": "C52", "title": "Arrays survive the tensor messages of the JAX backend", "statement": "An array of numbers or booleans written as a tensor message and read back is the same array - dtype, shape and every bit of every element - except exactly two kinds of arrays that are written but cannot be read: a single unsigned 32 or 64 bit integer, and an empty array of one of the less common dtypes with a non-zero extent. Strings come back as bytes. Exactly the arrays of supported dtypes are written.", "quantifier": "every array of every dtype, shape and content", "why_tests_cant": "several encodings (single value, raw content, per-type fields) must be inverse to each other for all dtypes, shapes and bit patterns", "anchors": ["meridian/backend/__init__.py:_jax_make_tensor_proto", "meridian/backend/__init__.py:_jax_make_ndarray"]}
{"id": "C53", "title": "Saved priors come back as the same distributions", "statement": "Saving the prior distributions succeeds exactly if every parameter, at any depth of nesting, is a 32-bit integer, a number, text, boolean, list, dictionary, array that fits a tensor message, known distribution or bijector, or a function that is registered or the default of its parameter. Loading with the same functions, registered possibly among others, gives for every prior the same class with the same parameters, numbers rounded to 32 bits and Python booleans as integers, without use of the defaults. Not guaranteed, with witnesses: a default function inside a dictionary is saved and cannot be loaded.", "quantifier": "every nesting of distributions, bijectors, lists and dictionaries, every registry and all 36 priors", "why_tests_cant": "parameters nest to any depth and functions are resolved by identity in an arbitrary registry", "anchors": ["meridian/schema/serde/distribution.py:DistributionSerde"]}
{"id": "C54", "title": "The expected outcome is given by the published model equation", "statement": "For every draw, geo and time the expected outcome is, on the scale of the model, the time effect plus the geo effect plus coefficients times standardised controls and non-media treatments plus, for every media channel, its coefficient times the saturated adstock of its per-capita median-scaled units (adstock of the saturated units with hill_before_adstock) and, for every reach and frequency channel, its coefficient times the adstock of scaled reach times saturated frequency; channels without saturation enter linearly. In KPI units it is population times (mean plus standard deviation times this), in revenue additionally times revenue per KPI.", "quantifier": "every draw, data set, number of channels of every kind, decay, saturation and lag", "why_tests_cant": "several kinds of channels are transformed and concatenated in different ways; the equation must hold for all of them at every size", "anchors": ["meridian/analysis/analyzer.py:Analyzer.expected_outcome", "meridian/analysis/analyzer.py:Analyzer._get_kpi_means", "meridian/model/equations.py:ModelEquations.adstock_hill_media", "meridian/model/equations.py:ModelEquations.adstock_hill_rf"]}
{"id": "C55", "title": "Helpers for log-normal priors give the requested distribution", "statement": "lognormal_dist_from_mean_std gives the log-normal distribution with exactly this mean and standard deviation; lognormal_dist_from_range accepts exactly 0 < low < high with a mass strictly between 0 and 1 and gives the log-normal distribution with this mass in the range and equal masses below and above; under the default ROI prior for KPIs without revenue, with independent channels, the total outcome of paid media has mean 40% and standard deviation 20% of the KPI.", "quantifier": "all real means, deviations, ranges and masses, all numbers of channels and spends", "why_tests_cant": "statements about distributions, for a continuum of parameters", "anchors": ["meridian/model/prior_distribution.py:lognormal_dist_from_mean_std", "meridian/model/prior_distribution.py:lognormal_dist_from_range", "meridian/model/prior_distribution.py:_get_total_media_contribution_prior"]}
{"id": "C56", "title": "Priors outside the parameter space are rejected and each channel gets the prior given for it", "statement": "A PriorDistribution is accepted exactly when no prior with a known support reaches outside the space of its parameter (non-negative standard deviations and Hill parameters, decays between zero and one), nor puts a point mass at a decay of one or a Hill parameter of zero. When the priors are broadcast to the data, a batch must have one distribution for each channel, and each channel then has the distribution given for it, or the single one given; in national models all parameters of differences between geos are point masses at zero. For a KPI without revenue, the default marginal ROI prior is rejected; the total media contribution prior is set exactly if all paid kinds in the data use the default ROI prior, and a mixture is rejected. Priors with mass at or below zero are rejected with log-normal media effects exactly if they are of the prior type given explicitly for media.", "quantifier": "all priors, all numbers of geos, channels, controls, treatments and knots, all combinations of options", "why_tests_cant": "tests try single wrong priors; the claim is an exact characterisation over 36 parameters and all batch lengths", "anchors": ["meridian/model/prior_distribution.py:PriorDistribution.__post_init__", "meridian/model/prior_distribution.py:_validate_support", "meridian/model/prior_distribution.py:PriorDistribution.broadcast", "meridian/model/prior_distribution.py:_convert_to_deterministic_0_distribution", "meridian/model/context.py:ModelContext._validate_mroi_priors_non_revenue", "meridian/model/context.py:ModelContext._validate_roi_priors_non_revenue", "meridian/model/context.py:ModelContext._check_for_negative_support"]}
{"id": "C57", "title": "Data that cannot identify the model is refused, naming the variables", "statement": "Creating a model raises an error exactly if, with several geos and as many knots as times, some control, treatment, media, reach or organic variable has (up to a standard deviation of 1e-4 after scaling) the same value in all geos at every time; or some such variable has the same value at all times in every geo; or some paid channel has no spend in total. The message names exactly these variables.", "quantifier": "all numbers of geos, times, knots and variables and all data", "why_tests_cant": "the code counts indices of flat columns; the claim is that the count characterises the variables for all data", "anchors": ["meridian/model/context.py:ModelContext._validate_geo_invariants", "meridian/model/context.py:ModelContext._check_if_no_geo_variation", "meridian/model/context.py:ModelContext._check_if_no_time_variation", "meridian/model/context.py:ModelContext._validate_spend_for_paid_channels"]}
{"id": "C58", "title": "A joint distribution of different priors treats each channel by its own prior", "statement": "IndependentMultivariateDistribution accepts exactly a non-empty list of non-deterministic distributions of one dtype with at most one batch dimension. Its batch has one element for each element of the given distributions, in order; log-probability, quantile and log-cdf are computed element by element, for one number for all or one number each, and any other number of values is refused; mean and variance are those of the elements; a sample has for each distribution the numbers this distribution draws from the seed. Not guaranteed, with a proof: with a seed, two distributions of the same kind draw identical numbers, so that the elements are not independent.", "quantifier": "every list of distributions, every batch length, every tensor of values, every seed and sample size", "why_tests_cant": "splitting and concatenating blocks must be right for every list of block sizes, and independence is a statement about a distribution", "anchors": ["meridian/model/prior_distribution.py:IndependentMultivariateDistribution"]}
{"id": "C59", "title": "Two distributions are found equal exactly if their classes and parameters agree", "statement": "distributions_are_equal returns True exactly if the classes, the nested distributions and the names of parameters are the same and the values agree within tolerance element by element after broadcasting; a distribution without NaN parameters equals itself. Not guaranteed, with proofs: the comparison is not symmetric, a batch of any number of copies equals the single distribution, a distribution with a NaN parameter differs from itself, and batches of different sizes raise an exception.", "quantifier": "every pair of distributions, nested to any depth, every batch length", "why_tests_cant": "distributions nest to any depth and compare through a tolerance and broadcasting", "anchors": ["meridian/model/prior_distribution.py:distributions_are_equal"]}
{"id": "C60", "title": "Thinning keeps regularly spaced draws and can be undone", "statement": "posterior_thinning accepts exactly a rate in (0,1] or a number between one and the number of draws (not both), on a posterior not yet thinned; each chain then has this number of its own draws, in order, without repetition, at distances that differ from n/m by less than one, and each draw is kept with the same probability m/n; a refused call changes nothing. After one fit and any history of thinnings and restorations the posterior consists of draws of this fit and restore_full_posterior gives back the fit or raises. Not guaranteed, with proofs: after thinning and fitting again, restoring replaces the new fit by the old one, also if the new fit was thinned with preserve_original; restoring after a thinning that kept all draws raises.", "quantifier": "all numbers of draws and chains, all rates, all random numbers, all histories of fits, thinnings and restorations", "why_tests_cant": "uniqueness of rounded positions and equal probabilities range over all sizes and a continuum of random numbers, and the stored posterior over all histories", "anchors": ["meridian/model/model.py:Meridian.posterior_thinning", "meridian/model/model.py:Meridian.restore_full_posterior", "meridian/model/model.py:_systematic_draw_indices"]}
{"id": "C61", "title": "A saved model can be loaded, and saving touches nothing else, at any crash point", "statement": "If all parts of a valid model can be written, save_meridian to a path with directory and supported extension succeeds and load_meridian gives the same data, specification, priors, EDA specification, samples and knots, with a warning exactly for another backend or precision; whatever is loaded has samples of the sizes of its data and knots of the version that saved it. At every point of a save all other files are unchanged. Not guaranteed, with proofs: a crash or a failing save leaves an empty or partial file in place of the model saved before, an unsupported extension empties the file, a name without directory cannot be saved, the result of review() is lost, and a model loaded from a file of version 1.7.1 or before with automatic knots does not survive being saved again if the algorithms give different knots.", "quantifier": "all models, paths, file systems, versions and crash points", "why_tests_cant": "tests save to fresh temporary files; the claim is about every intermediate state of the disk and every version", "anchors": ["meridian/schema/serde/meridian_serde.py:save_meridian", "meridian/schema/serde/meridian_serde.py:load_meridian", "meridian/schema/serde/meridian_serde.py:MeridianSerde", "meridian/model/model.py:Meridian._validate_injected_inference_data"]}
{"id": "C62", "title": "Reported means, medians and credible intervals describe the draws", "statement": "For a level c in [0,1] and draws without NaN, the reported mean is the average over all draws of all chains, the optional median splits them in half, and lo <= median <= hi; at most a share (1-c)/2 (by ranks) of the draws lies below lo and as many above hi, at least the corresponding share lies at or beyond the ends, the ends are the draws of exactly that rank when it is whole and linear in the level between two ranks; larger levels give larger intervals, level 1 the range of the draws; order and assignment to chains do not matter, rescaling the draws rescales the result, one NaN draw makes everything NaN. Levels outside [-1,1] and empty draws are refused. Not guaranteed, with proofs: a negative level is accepted and gives the interval with its ends swapped, and the mean may lie outside the interval.", "quantifier": "all numbers of chains and draws, all draws and all levels", "why_tests_cant": "the claim is about ranks for every number of draws and a continuum of levels", "anchors": ["meridian/analysis/analyzer.py:get_central_tendency_and_ci"]}
{"id": "C63", "title": "Predictive accuracy is computed on exactly the selected and held-out observations", "statement": "predictive_accuracy reports, for the selected geos and dates, R-squared, MAPE and wMAPE of exactly the selected observations, per geo and summed over geos, and, with a holdout, the same of exactly the training and of exactly the held-out observations; cells without observations are left out, dates without any observation do not count; R-squared is at most one, with one exactly for a perfect fit, and wMAPE is the outcome-weighted average of the percentage errors. Not guaranteed, with witnesses: dates may be given in another text form, and then the train and test rows are computed with the wrong holdout flags, or the call fails.", "quantifier": "all data, holdout patterns, selections of geos and dates, numbers of geos and times", "why_tests_cant": "masks, gaps and selections combine in unboundedly many ways", "anchors": ["meridian/analysis/analyzer.py:Analyzer.predictive_accuracy", "meridian/analysis/analyzer.py:_calc_rsquared", "meridian/analysis/analyzer.py:_calc_mape", "meridian/analysis/analyzer.py:_calc_weighted_mape", "meridian/analysis/analyzer.py:Analyzer._filter_holdout_id_for_selected_geos_and_times"]}
{"id": "C64", "title": "Expected-versus-actual data reports each observation once, in its own evaluation set", "statement": "expected_vs_actual_data reports, for every cell (or sum over geos or times), the actual outcome and the mean and central interval of the draws of the expected outcome and of the baseline in this cell; with a holdout split every observation is reported in exactly one of train and test, with its own numbers, and blank in the other, while the actual outcome and the totals without split are unaffected. ModelFit shows these numbers, its national lines are the sums over the geos. Not guaranteed, with proofs: with a split, a sum over geos or times that contains both training and held-out cells is blank in both sets; the national band is the sum of the ends of the bands of the geos, which may be wider or narrower than the interval of the national outcome; ModelFit.update_confidence_level forgets use_kpi, so the figures change from KPI to revenue.", "quantifier": "all data, draws, holdout patterns, levels and aggregations", "why_tests_cant": "masks, aggregations and intervals combine in unboundedly many ways", "anchors": ["meridian/analysis/analyzer.py:Analyzer.expected_vs_actual_data", "meridian/analysis/analyzer.py:Analyzer._mean_and_ci_by_eval_set", "meridian/analysis/analyzer.py:Analyzer._can_split_by_holdout_id", "meridian/analysis/visualizer.py:ModelFit"]}
{"id": "C65", "title": "The R-hat summary and the convergence check describe the R-hat values", "statement": "get_rhat blanks exactly the saturation parameters of channels without saturation. rhat_summary has one row for each parameter whose prior is not deterministic, with the number, average and maximum of its values, the share above the threshold and exactly the positions of those values; it is refused exactly for parameters with more than two dimensions. The convergence check reports the largest R-hat value with its parameter and says converged exactly if all values are below the first threshold, not converged exactly if one is at or above the second. Not guaranteed, with proofs: blanked channels count in the number of parameters and in the share; if the first parameter has no R-hat value (its prior is deterministic) a converged model is reported as not converged; if no parameter has one the model is reported as converged.", "quantifier": "all R-hat values (NaN and infinities included), all parameters, shapes, saturation specifications and thresholds", "why_tests_cant": "the order of comparisons with NaN and the positions must be right for all values and shapes", "anchors": ["meridian/analysis/analyzer.py:Analyzer.rhat_summary", "meridian/analysis/analyzer.py:Analyzer.get_rhat", "meridian/analysis/analyzer.py:Analyzer._mask_hill_parameters_for_linear_channels", "meridian/analysis/review/checks.py:ConvergenceCheck.run"]}
{"id": "C66", "title": "The model review reports exactly what its thresholds say", "statement": "The review stops with a failure exactly if the model did not converge. Otherwise it contains the convergence result and one result for each relevant check of the battery, in order, and its overall status is a failure exactly if one of them failed. The baseline check fails (passes) exactly if more than the failing share (less than the review share) of the draws of the baseline is negative; the p-value check passes exactly if at least the threshold share of draws is at least as far from the mean as the actual outcome; the fit check asks for a review exactly if a reported R-squared is at most the threshold; the ROI consistency check has one result for each channel and passes exactly if all prior quantiles exist and are finite and the channels whose posterior mean is outside are within the limit; a prior statistic beyond all posterior draws is always found as a shift, whatever the bootstrap samples; the summary of a default review can be injected into a model with the same channels.", "quantifier": "all posterior draws, prior statistics (also NaN and infinite), R-hat tables, R-squared values, thresholds, channel limits, batteries and bootstrap samples", "why_tests_cant": "the statuses depend on comparisons of arbitrary draws, shares and thresholds, on the combination of prior types of the channel groups and on random bootstrap positions", "anchors": ["meridian/analysis/review/reviewer.py: ModelReviewer.run", "meridian/analysis/review/checks.py: BaselineCheck, BayesianPPPCheck, GoodnessOfFitCheck, PriorPosteriorShiftCheck, ROIConsistencyCheck, ImplausibleROICheck", "meridian/analysis/review/configs.py: ChannelCheckConfig", "meridian/model/model.py: _validate_injected_health_summary, _is_valid_results_subset"]}
{"id": "C67", "title": "The health score is a weighted mean between 0 and 100", "statement": "The health score is 0 exactly if the model did not converge; otherwise, with baseline thresholds in order and a finite R-squared, it is strictly between 0 and 100. For the default review it is the weighted mean, with weights 30, 30, 10, 15 and 15, of the scores of the checks that ran: a baseline score that falls linearly between the thresholds, 100 or 0 for the p-value, a logistic function of R-squared, and powers of the shares of the channels that shifted and that are consistent.", "quantifier": "all models, draws, R-squared values, batteries and numbers of channels", "why_tests_cant": "the range and the formula must hold for all real scores and all combinations of checks that ran", "anchors": ["meridian/analysis/review/reviewer.py: ModelReviewer._compute_health_score, _get_baseline_score, _get_bayesian_ppp_score, _get_gof_score, _get_pps_score, _get_roi_consistency_score", "meridian/analysis/review/constants.py"]}
{"id": "C68", "title": "Input data survive saving and loading", "statement": "Input data whose geos are named and distinct, whose media times are evenly spaced dates in ISO form, whose times are some of the media times and whose arrays all have these geos and times can be saved, and what was saved can be loaded. The loaded data have the same KPI, type of KPI, population, revenue per KPI, controls, media, frequency, organic media, non-media treatments, spend (by geo and time or by channel) and currency, with the same coordinates in the same order and NaN in the same places; reach and organic reach come back without their fractions, so the data are unchanged exactly if reach is in whole numbers. Data with fewer than two media times are refused. Not guaranteed, with proofs: dates with one-digit months are saved but cannot be loaded; controls with other dates and the media of an unnamed geo are silently lost; arrays with their geos in different orders come back in another order.", "quantifier": "all input data: any number of geos, times, channels, controls; any combination of optional arrays; any values", "why_tests_cant": "every combination of optional arrays, spend granularity, time windows and values must come back, and the failures concern unusual labels", "anchors": ["meridian/schema/serde/marketing_data.py: MarketingDataSerde.serialize, MarketingDataSerde.deserialize", "meridian/schema/utils/time_record.py: convert_times_to_date_intervals"]}
{"id": "C69", "title": "Sampling is refused exactly for unfit data", "statement": "Sampling the posterior is refused exactly if a check before it raised an exception, the KPI per head is the same in every geo and time, two variables (treatments or controls) are correlated beyond the threshold, or the other variables predict a variable up to less than one over the threshold of its variation: in the national series for a national model, otherwise over all geos and times. The exception names the failed checks. Exact copies up to units are always found and units do not matter; a variable that is a combination of others is always found, and adding variables never hides it; a pair correlated beyond r makes both variance inflation factors exceed 1/(1-r^2). What is found in single geos only draws attention, exactly if it was not already found overall. A model with a KPI that does not vary is refused already when it is made if a treatment has a prior on return or contribution; otherwise it can be made but never sampled.", "quantifier": "all data: any number of variables, geos, times, any values, thresholds and names", "why_tests_cant": "the conditions concern all real data sets, the equality case of correlation and regressions on any number of variables", "anchors": ["meridian/model/eda/eda_engine.py: EDAEngine.run_all_critical_checks, check_pairwise_corr, check_vif, check_overall_kpi_invariability, kpi_has_variability", "meridian/model/model.py: Meridian._run_model_fitting_guardrail, Meridian._validate_kpi_variability"]}
{"id": "C70", "title": "The standard deviation check before sampling reports low variation and outliers exactly", "statement": "check_std (and check_geo_std, check_national_std) lists as outliers exactly the values of a series (one variable, in one geo for geo data) further than 1.5 interquartile ranges outside the quartiles of the numbers of this series, by decreasing absolute value; gives for each series the sample standard deviation of its numbers with and without these; reports a variability finding for a variable exactly if some of its series has a standard deviation without outliers below the threshold, an outlier finding exactly if it has an outlier, and an information exactly if there is nothing else. At least half of the numbers are kept. The result does not depend on units of measurement. A channel that is off in more than three quarters of the periods is always reported both ways.", "quantifier": "every engine, level, threshold, set of variables and series of any length with NaNs anywhere", "why_tests_cant": "tests try a few series; the claims are about every series, every length (the interpolated quartiles behave differently for the four remainders of the length) and every position of NaNs", "anchors": ["meridian/model/eda/eda_engine.py:_get_outlier_bounds", "meridian/model/eda/eda_engine.py:_calculate_std", "meridian/model/eda/eda_engine.py:_calculate_outliers", "meridian/model/eda/eda_engine.py:EDAEngine.check_std"]}
{"id": "C71", "title": "The cost per media unit check finds every contradiction between cost and units", "statement": "check_cost_per_media_unit lists exactly the periods of a channel with media units at no cost or with cost and no media units, and exactly the periods whose cost per media unit is an outlier among the costs per unit of the periods with units; it reports one finding for each of the two tables that is not empty, and an information if both are. The currency of the costs does not matter. The geo version refuses national data.", "quantifier": "every set of channels and geos with series of costs and media units of any length, with NaNs anywhere, and every change of currency", "why_tests_cant": "the claim is an equivalence for every period of every data set", "anchors": ["meridian/model/eda/eda_engine.py:_check_cost_media_unit_inconsistency", "meridian/model/eda/eda_engine.py:_check_cost_per_media_unit", "meridian/model/eda/eda_engine.py:EDAEngine.check_cost_per_media_unit"]}
{"id": "C72", "title": "The exploratory checks look at the modelled periods, added up over geos", "statement": "The data behind the exploratory checks are cut to the modelled periods. National series of media, impressions, reach and KPI are sums over geos; national frequency is the mean frequency weighted by reach (between the frequencies of the geos reached, zero if nobody was reached); national controls and non-media treatments are what the user's function for that name, or else the sum, makes of the values of all geos. Scaled media and impressions are per head, have median one without the zeros and do not depend on units; the other series are standardised. Geo-level and national data hold the same variables in the same order, and are the same for national data. The data can be made exactly if every media channel was ever active and every reach and frequency channel has impressions in a modelled period. Not guaranteed, with proof: a model with a reach and frequency channel that was on before the modelled periods only is accepted but cannot be sampled.", "quantifier": "all data: any number of geos, periods, earlier periods, channels and variables, any aggregation functions", "why_tests_cant": "the claims are about every data set and every aggregation function; the failure needs a channel that stopped before the modelled periods", "anchors": ["meridian/model/eda/eda_engine.py:EDAEngine._truncate_media_time", "meridian/model/eda/eda_engine.py:EDAEngine._aggregate_and_scale_geo_da", "meridian/model/eda/eda_engine.py:EDAEngine._get_rf_data", "meridian/model/eda/eda_engine.py:EDAEngine.treatment_control_scaled_ds", "meridian/model/eda/eda_engine.py:EDAEngine.national_treatment_control_scaled_ds"]}
{"id": "C73", "title": "The informative exploratory reports: correlation with population, variation explained by geo and time, data per parameter, prior contributions", "statement": "The reported correlation of a variable with population is between -1 and 1, undefined exactly if one of them is constant, depends on the orders of the geos only, is 1 (-1) exactly if the orders agree (are opposite), and without ties follows Spearman's formula. The reported shares of a variable explained by geo and time are one minus the ratio of the mean squares within and in total; the unadjusted shares add up to at most one, and to one exactly for a geo effect plus a time effect; the shares do not depend on units. The ratio of data points to parameters is below one exactly if there are more parameters. The prior probability of a negative baseline is the share of such draws, and the prior contribution of a channel the mean over the draws of its share in the observed outcome. Not guaranteed, with proof: a variable constant over time gets a negative share explained by time where NaN is announced, and whether shares are reported depends on the unit.", "quantifier": "all variables by geo and time, with any numbers of geos and periods, populations with any ties, counts and draws", "why_tests_cant": "tests compare a few data sets with scipy and statsmodels; the claims are equivalences for all data", "anchors": ["meridian/model/eda/eda_engine.py:_spearman_coeff", "meridian/model/eda/eda_engine.py:_calc_adj_r2", "meridian/model/eda/eda_engine.py:EDAEngine.check_variable_geo_time_collinearity", "meridian/model/eda/eda_engine.py:EDAEngine._calculate_population_corr", "meridian/model/eda/eda_outcome.py:DataParameterRatioArtifact", "meridian/model/eda/sampling_eda_engine.py"]}
{"id": "C74", "title": "A budget scenario looked up in the weekly grid", "statement": "The grid that a weekly optimization grid returns for a scenario has the spend levels, the historical spend and the rounding of the grid an ordinary optimization would make for the period, and the outcome at a spend level is the total over the weeks of the period of the outcomes interpolated at the ratio of this spend to the historical spend. Interpolation is exact at the multipliers and for outcomes proportional to spend, never exceeds a response with diminishing returns, and errs by at most the difference between the neighbouring multipliers. Periods add up. No grid is returned exactly if a given date is not in the weekly grid or the bounds of a channel are not covered by the multipliers; with a grid, spend levels exceed the multipliers by rounding only, and the historical budget is always covered. Not guaranteed, with proof: a channel whose historical spend rounds to zero gets a positive outcome for no spend; a spend level beyond the multipliers can be accepted and its outcome cut off; a scenario within the limits the grid was made for can be refused.", "quantifier": "all weekly grids, periods, budgets and constraints; all numbers of weeks, channels and multipliers", "why_tests_cant": "tests compare one small grid with the ordinary optimizer; the failures depend on how spend is rounded", "anchors": ["meridian/analysis/weekly_optimization_grid.py:WeeklyOptimizationGrid.to_optimization_grid", "meridian/analysis/weekly_optimization_grid.py:WeeklyOptimizationGrid._validate_optimization_bounds", "meridian/analysis/weekly_optimization_grid.py:WeeklyOptimizationGrid._validate_dates"]}
{"id": "C75", "title": "Making and joining weekly grids", "statement": "The multipliers of a weekly grid are those from the lower to the upper limit in steps, increasing, the first is the lower limit and the last is within half a step of the upper limit. The outcome of a week at a multiplier is the expected gain, summed over geos, over no activity of the channel; it is zero at multiplier zero and does not depend on the batch size, the mean of the KPI or on which other weeks are selected. Two or more grids can be joined exactly if their settings agree and their weeks together are consecutive weeks, each once; the result has the weeks of the parts with their outcomes and spends in order of time, whatever the order of the grids, and every period has the total of the parts. Not guaranteed, with proof: a variation above one is accepted and gives negative multipliers; a single grid is not checked.", "quantifier": "all limits, steps, batch sizes, data and lists of grids", "why_tests_cant": "the claims hold for any number of grids in any order and for every step", "anchors": ["meridian/analysis/weekly_optimization_grid.py:WeeklyOptimizationGrid.create", "meridian/analysis/weekly_optimization_grid.py:WeeklyOptimizationGrid.combine"]}
{"id": "C76", "title": "A budget optimization reports the outcome that it optimized", "statement": "The outcome that the optimizer's grid holds for a channel at a spend level is the mean over the draws of the incremental outcome of the channel when its executions are scaled from the historical spend to that level, whatever the other channels get. The results reported for a chosen budget have the same outcome for each channel, so that the reported total is the value that the search compared, and the response curves pass through the reported points. Budget, total outcome, profit, ROI, shares of spend, effectiveness and cost per incremental KPI are consistent with each other; the marginal ROI is the change of the outcome for one percent more spend, and at a fixed frequency equals the ROI for reach and frequency channels. A warning about a target appears exactly if the reported result misses it. Not guaranteed, with proof: a channel without historical spend in the selected period is reported with outcome zero whatever its executions do.", "quantifier": "all data, posterior draws, selections of geos and times, optimized frequencies, spend grids and allocations on them, both backends", "why_tests_cant": "the claim ties two separate computations, in the grid and in the report, for every allocation", "anchors": ["meridian/analysis/optimizer.py:BudgetOptimizer._create_grids", "meridian/analysis/optimizer.py:BudgetOptimizer._update_incremental_outcome_grid", "meridian/analysis/optimizer.py:BudgetOptimizer._get_incremental_outcome_tensors", "meridian/analysis/optimizer.py:BudgetOptimizer._create_budget_dataset", "meridian/analysis/optimizer.py:_raise_warning_if_target_constraints_not_met", "meridian/analysis/analyzer.py:Analyzer.get_aggregated_impressions"]}
{"id": "C77", "title": "The tables and charts of a budget optimization show its results", "statement": "The table of changes has every channel once, decreases first and the largest changes first, and adds up to the change of the total. The waterfall chart starts at the total before the optimization, each bar starts where the last one ended and has the length of the change of its channel, and the last bar is the total after the optimization; all bars are visible if the total does not fall. The wanted number of channels with most spend is shown. The response curves contain the historical spend and go beyond every upper bound, and the part drawn as within the constraint is exactly the part between the bounds. The allocation table has every channel, ordered by optimized share, with rounded percentages that add up to one hundred up to half a percent for each channel. The selected times are those between start and end, as labels and as flags alike. Not guaranteed, with proof: if the optimization lowers the total the waterfall chart is cut off; a negative number of channels is accepted; times of new data in another notation select nothing.", "quantifier": "all results: any number of channels, any outcomes and spends (including unknown ones), bounds and times", "why_tests_cant": "tests look at the chart of one result; the claims are about every result", "anchors": ["meridian/analysis/optimizer.py:OptimizationResults._get_delta_data", "meridian/analysis/optimizer.py:OptimizationResults.plot_incremental_outcome_delta", "meridian/analysis/optimizer.py:OptimizationResults.get_response_curves", "meridian/analysis/optimizer.py:OptimizationResults.plot_response_curves", "meridian/analysis/optimizer.py:OptimizationResults._get_top_channels_by_spend", "meridian/analysis/optimizer.py:OptimizationResults._create_budget_allocation_table", "meridian/analysis/optimizer.py:_expand_selected_times"]}
{"id": "C78", "title": "Numbers in the reports are read as the numbers they stand for", "statement": "Every number in the reports, read back with its sign, decimals and letter for thousands, millions, billions or trillions, differs from the number by at most half of the last shown digit; an amount of money of at least one by at most five percent; a percentage of at least one by at most half a percent, a smaller positive one by at most a third and it is never shown as zero. A minus sign appears exactly for negative numbers and stands before the currency; changes of budget and outcome have a plus sign exactly if they are increases. Not guaranteed, with proof: just below a unit four digits are shown (1000k); small negative numbers are shown as -0; a negative percentage is shown with an exponent; the shown change of the ROI can differ from the difference of the shown values; increases of the cost per incremental KPI have no plus sign.", "quantifier": "all numbers, decimals and currencies", "why_tests_cant": "tests format a few numbers; the claim is about all of them", "anchors": ["meridian/templates/formatter.py:compact_number", "meridian/templates/formatter.py:format_monetary_num", "meridian/templates/formatter.py:format_percent", "meridian/templates/formatter.py:format_number_text", "meridian/analysis/optimizer.py:OptimizationResults._create_scenario_stats_specs"]}
{"id": "C79", "title": "The summary table holds, in every cell, the statistics of the quantity its name says", "statement": "A summary table is given exactly if prior and posterior have been sampled and the increase for the marginal ROI is positive (and, when frequencies are passed with non-paid channels, the numbers of channels fit). In every cell, for each channel and for all channels together, for prior and posterior and for mean, median and interval at the requested level: the incremental outcome is that of the effect of the channel on the expected outcome over the geos and times of the cell; ROI is per unit of spend, effectiveness per media unit, marginal ROI per unit of additional spend, the CPIK is spend per unit of incremental KPI even when the table is in revenue; the percentage of contribution is relative to the mean expected outcome. Spend, impressions, their shares and the cost per thousand are those of the cell. The mean percentages of all channels and of the baseline table make 100. Not guaranteed, with proof: the frequencies passed have no effect at all; they can be refused because organic channels are of another number.", "quantifier": "all models, data, draws, selections of geos and times, aggregations, cells, channels, statistics and levels", "why_tests_cant": "tests compare a table of one data set with stored numbers; the claim is about every cell of every table", "anchors": ["meridian/analysis/analyzer.py:Analyzer.summary_metrics", "meridian/analysis/analyzer.py:Analyzer.baseline_summary_metrics", "meridian/analysis/analyzer.py:Analyzer.compute_incremental_outcome_aggregate", "meridian/analysis/analyzer.py:Analyzer.get_aggregated_impressions", "meridian/analysis/analyzer.py:Analyzer._compute_pct_of_contribution"]}
{"id": "C80", "title": "The report of the optimal frequency holds the quantities at the optimum of the grid", "statement": "A report is given exactly if there is a reach and frequency channel, the grid is not empty and prior and posterior have been sampled. For every frequency of the grid and every channel it holds the statistics of the ROI with the channel at that frequency and its impressions unchanged. The optimal frequency of a channel is the first one of the grid with the largest mean ROI. The optimised outcome, ROI, effectiveness, marginal ROI by reach and by frequency and CPIK are those of the channel at its optimal frequency; the optimised mean ROI is the largest one of the grid. The default grid has the frequencies 1, 1.1, 1.2, ... below the maximum. Not guaranteed, with proof: the intervals of the optimised quantities ignore the requested confidence level although the report names it; the request fails without posterior even if only the prior is used; it fails if no frequency of the data exceeds 1; a maximum of 0 is taken as not given.", "quantifier": "all models, data, draws, grids, selections, channels and statistics", "why_tests_cant": "tests check one grid on one data set; the claim is about all of them, and optimality is about every frequency of the grid", "anchors": ["meridian/analysis/analyzer.py:Analyzer.optimal_freq", "meridian/analysis/analyzer.py:Analyzer.summary_metrics", "meridian/analysis/tensors.py:DataTensorsBuilder.build_unscaled_inputs"]}
{"id": "C81", "title": "The adstock decay table and the Hill curve table show the curves the model uses", "statement": "The adstock decay table is given exactly if prior and posterior have been sampled, there is a channel with adstock and the maximum lag is at most 1000. For every channel, every time from 0 below the maximum lag in even steps, and prior and posterior, it has one row with mean and credible bounds of the effect retained at that time; at whole periods this is the weight of that lag relative to the weight of lag 0 in the model. The mean starts at 1, stays between 0 and 1 and never increases. The Hill curve table has for every channel 500 even quantities per person from 0 to the largest one in the data, each with mean and credible bounds of the saturation the model computes for this quantity; the mean starts at 0, stays at most 1 and never decreases. The histogram has consecutive bins of equal width over the range of the data; count times width is the share of the observations in the bin, all shares add up to 1 and the scaled column has maximum 1. The data frame of the visualizer keeps exactly the channels with a saturation. Not guaranteed, with proof: the largest lag is never shown; with maximum lag 0 an effect after a fraction of a period is shown; binomial decay with more lags than periods gives missing values; the analyzer gives Hill curves also to channels without saturation; the plot without the prior loses the histogram.", "quantifier": "all models, data, draws, channels, lags, confidence levels and numbers of bins", "why_tests_cant": "tests compare one table with stored numbers; agreement with the weights and the saturation of the model must hold for every channel, lag and quantity", "anchors": ["meridian/analysis/analyzer.py:Analyzer.adstock_decay", "meridian/analysis/analyzer.py:Analyzer.hill_curves", "meridian/analysis/analyzer.py:Analyzer._get_channel_hill_histogram_dataframe", "meridian/analysis/visualizer.py:MediaEffects.hill_curves_dataframe", "meridian/model/adstock_hill.py:compute_decay_weights"]}
{"id": "C82", "title": "Objects of the visualizer answer for their current settings, unless they were changed after a request", "statement": "Over every history of creating media summary objects, updating them and requesting metrics: the settings of an object are those it was made with as changed by its own updates; if no object is updated after it was asked, every request gives what the analyzer answers for the current settings; in every history, a value returned was the analyzer's answer for settings this object had at some time. Not guaranteed, with proof: once a request has returned a value, the same request returns this value after any updates; two spellings of the same request can disagree; the title of the ROI chart gives the level of the new settings for intervals of the old level, cut to a whole percentage. The data of the reach and frequency object always belong to the times selected last. The response curves ignore the `by_reach` the media effects object was made with. Drawn together there are 1 to 10 curves, 7 by default, and those shown have the largest spends; the number in the title counts channels that have no curve.", "quantifier": "all histories with any number of objects, updates and requests, all analyzers, all settings, all numbers of channels", "why_tests_cant": "tests update an object that was never asked; the cache is visible only in histories with a request before the update", "anchors": ["meridian/analysis/visualizer.py:MediaSummary.get_paid_summary_metrics", "meridian/analysis/visualizer.py:MediaSummary.get_all_summary_metrics", "meridian/analysis/visualizer.py:MediaSummary.update_summary_metrics", "meridian/analysis/visualizer.py:ReachAndFrequency.update_optimal_reach_and_frequency_selected_times", "meridian/analysis/visualizer.py:MediaEffects.response_curves_data", "meridian/analysis/visualizer.py:MediaEffects.plot_response_curves"]}
{"id": "C83", "title": "The contribution table, and the charts built on it, split the expected outcome into baseline and channels", "statement": "The contribution table has for every time (or the whole) one row for the baseline and one for every selected channel, sorted by time and falling outcome; unknown channels are rejected. The row of a channel has its posterior mean effect and this as a share of the mean expected outcome; the share of the baseline is what is missing to 1, its outcome what is missing to the expected outcome, and with the non-paid channels included both agree with the baseline table of the analyzer. The bars of the waterfall join end to end from 0 to the sum of the shares. The ranks of the bump chart are 1, 2, ... in every time, the larger outcome first; the quarterly chart shows exactly the last date of every quarter. The pie chart shows the total of all channels and the baseline, the larger first. The axis of the area chart starts at the smallest baseline. The spend and contribution table has both shares of every channel; if some ROI is positive the scaled ROI keeps order and sign and peaks at the largest share. The bar charts show mean (CPIK: median) and interval of every channel alphabetically. Not guaranteed, with proof: effects that add up to exactly zero give a baseline without outcome; with selected channels the shares do not add up; channels that differ in case share a bar of the waterfall; if no ROI is positive all scaled ROIs are positive and the worst is shown highest; equal axes cut off negative values; after an update the baseline rows and the channel rows can be for different times.", "quantifier": "all models, draws, selections, channels, times and summary values", "why_tests_cant": "tests compare one table with fixed numbers; that shares add up to one and that two APIs agree on the baseline must hold for every posterior", "anchors": ["meridian/analysis/visualizer.py:MediaSummary.contribution_metrics", "meridian/analysis/visualizer.py:MediaSummary._calculate_baseline_contribution_dataframe", "meridian/analysis/visualizer.py:MediaSummary._transform_contribution_spend_metrics", "meridian/analysis/visualizer.py:MediaSummary.plot_channel_contribution_bump_chart", "meridian/analysis/visualizer.py:MediaSummary.plot_contribution_waterfall_chart", "meridian/analysis/visualizer.py:MediaSummary._summary_metric_to_df"]}
{"id": "C84", "title": "The text table of the media summary shows every estimate with its interval, readable to half a unit of the last decimal", "statement": "summary_table has one row for every channel, the total included, and every requested distribution, channels in order and prior before posterior; it is refused exactly if neither distribution is requested. Every cell is read back as its numbers up to half a unit of the last decimal shown: impressions, spend, shares and CPM as one number, every estimate as central value and interval bounds, the central value being the median for CPIK and the mean otherwise. Shares carry the percent sign; CPM and CPIK carry the currency, spend and incremental outcome only if the outcome is revenue. Effectiveness has two decimals; a column without NaN has one decimal if some number in it is below one in absolute value and none otherwise. A central value inside its interval is shown inside it. Not guaranteed, with proof: returns of 1.5 and 2.49 are both shown as 2; NaN in the first row hides the decimals of the column, so that 0.4 is shown as 0; for a KPI spend has no currency although CPM has; the sign of a negative amount is after the currency.", "quantifier": "all summary datasets, currencies and flags", "why_tests_cant": "tests compare a handful of rendered cells; the reading error must be bounded for every number, and the number of decimals depends on the whole column", "anchors": ["meridian/analysis/visualizer.py:MediaSummary.summary_table"]}
{"id": "C85", "title": "A dated spec selects exactly its half-open range of dates, and its intervals tile that range", "statement": "A spec is accepted unless its start is after its end; an optimization spec also needs two names that are not blank and a confidence level in [0, 1]. For a model whose dates have the step k, a spec resolves exactly when its start is a date of the model, its end is k days after a date of the model, and the end is at least k days after the start. With equally spaced dates, the selected dates (as a list and as flags) are exactly those with start <= date < end, a missing bound not restricting. Whenever a spec resolves, the single interval reported for it is the interval written in it, with the first date and the last date plus one step for a missing bound, and it keeps the tag. With equally spaced dates the intervals reported per date are one per selected date, each begins where the one before ends, and together they cover the interval of the spec. Not guaranteed, with proof: a spec with equal dates is accepted but never resolves; for monthly data an end on the first of a month can be refused although it is a date of the model, and the intervals per month leave days out and overlap.", "quantifier": "all dated specs and all time axes; the half-open and tiling parts for all equally spaced axes", "why_tests_cant": "tests use a few weekly axes; off-by-one-period errors at the exclusive end depend on both bounds, on the step and on the calendar", "anchors": ["meridian/schema/processors/model_processor.py:DatedSpec", "meridian/schema/processors/model_processor.py:DatedSpecResolver", "meridian/schema/processors/model_processor.py:OptimizationSpec", "meridian/schema/utils/time_record.py:create_date_interval_pb"]}
{"id": "C86", "title": "Exporting a model runs every spec exactly once, with all specs of its type together, and stores each result in its own field", "statement": "create_mmm_proto succeeds exactly if the model has prior and posterior, every spec is of one of the four supported types, and the processor of every type that has specs succeeds on them. The message then has the kernel and, for each type, the result of running all specs of that type together in the order given; a type without specs has no result. Every spec is in exactly one group, as often as it was given; the types are run in the order of their first specs; the order between specs of different types does not change the message. A processor is constructed with exactly the parameters its constructor names. Not guaranteed, with proof: two processors for one spec type are noticed only if there is a spec; a spec of a derived type is refused although it is an instance of the supported type; the documented ValueError for an unfitted model is never raised (it is an AttributeError).", "quantifier": "all lists of specs (any types, any order, any multiplicity), all processors, fitted and unfitted models", "why_tests_cant": "tests run a few specs; lost or doubled specs and overwritten results depend on the interleaving of types", "anchors": ["meridian/schema/model_consumer.py:ModelConsumer", "meridian/schema/model_consumer.py:_create_processor", "meridian/schema/mmm_proto_generator.py:create_mmm_proto", "meridian/schema/processors/model_processor.py:TrainedModel", "meridian/schema/processors/model_processor.py:ModelProcessor"]}
{"id": "C87", "title": "The exported model fit has one prediction per date with the right interval, totals and accuracy for each evaluation set", "statement": "A model fit spec is accepted exactly if its confidence level is strictly between 0 and 1; only the first spec has an effect. For a model with increasing dates, the message is produced exactly if the dates are regular and, when the model has a holdout, the split is asked for. The results are Train, Test and All Data if there is a holdout and otherwise All Data alone. Every result has one prediction per date in order: its interval starts at the date and ends at the next one, its actual value is the total over the geos, and prediction and baseline show mean and credible interval of the total over the geos at the level of the spec, if all geos belong to the evaluation set at that date, and NaN otherwise. The performance is the national row of the predictive accuracy for that evaluation set. Not guaranteed, with proof: split=False fails for every model with a holdout; where only some geos are held out, Train and Test are both NaN; actual values are never restricted to the evaluation set.", "quantifier": "all models with or without holdout, all time axes, all accepted specs", "why_tests_cant": "tests compare one mocked dataset; the alignment of dates, intervals and evaluation sets must hold for every axis and every holdout pattern", "anchors": ["meridian/schema/processors/model_fit_processor.py:ModelFitProcessor", "meridian/schema/processors/model_fit_processor.py:ModelFitSpec", "meridian/schema/utils/time_record.py:convert_times_to_date_intervals"]}
{"id": "C88", "title": "Exported marketing analyses: one per period, one entry per channel, each figure from the right dataset, channel, time and KPI", "statement": "A marketing spec is accepted exactly if its dates are, its level is strictly between 0 and 1 and it asks for exactly one of media summary and incremental outcome; new data for an incremental outcome must have times. The output lists, spec by spec, one analysis for the whole range (aggregated times) or one for each selected period in order. A media summary has an entry for every paid channel and for all channels together, in order, with the figures of that channel and period from the posterior metrics: mean outcome, share and spend share as fractions, return, median cost, and effectiveness and marginal return only for single channels; revenue alone, the KPI alone, or revenue and then the KPI, according to the model. Aggregated summaries carry the response curve of each paid channel, one point per multiplier. Non-paid channels come as non-media entries, followed by exactly one baseline entry. An incremental outcome has for each channel and period mean and interval of the posterior draws of that channel and period and nothing else. Without new data the processor succeeds exactly if the dates of every spec can be resolved. Not guaranteed, with proof: include_non_paid_channels of an incremental outcome and media_selected_times of a media summary are ignored; with non-paid channels the total becomes a non-media entry; baseline and response curves ignore new data, so that an analysis of new dates carries the baseline of the old ones; the baseline has no KPI outcome where channels have one; cost and return are both reported for every kind of KPI.", "quantifier": "all specs and lists of specs, all time axes, all channels, all datasets the analyzer may return", "why_tests_cant": "tests compare messages for a few mocked datasets; swapped channels, periods, KPI kinds or arguments show up only for some combinations", "anchors": ["meridian/schema/processors/marketing_processor.py:MarketingProcessor", "meridian/schema/processors/marketing_processor.py:MarketingAnalysisSpec", "meridian/schema/processors/marketing_processor.py:IncrementalOutcomeSpec", "meridian/schema/processors/common.py:to_estimate"]}
{"id": "C89", "title": "Exported budget optimizations: the optimizer is asked for what the spec says, and the message reports its answer with constraints that contain both allocations", "statement": "A relative constraint is accepted exactly if its lower ratio is in [0, 1] and its upper one is not negative; a scenario exactly if its budget or target is not negative and the target is a return or marginal return; a spec exactly if its dates, names and level are valid, the batch size is positive, new data has times and a frequency cap that is used is at least 1. Constraints must name paid channels; the last one on a channel counts and 1 and 2 are the defaults. The output is one message per spec, in order, and groups are distinct. The optimizer is called with the dates, scenario, ratios in channel order, level, KPI, grid, data and frequency settings of the spec, the end date moved back by one period. The message carries the resolved dates, the scenario (a missing budget replaced by the optimized total), the two allocations channel by channel with mean and interval of each metric, the response curve of each channel by increasing spend, and the grid column by column. The absolute constraints in it, recomputed from rounded spend, are those of the search: for each channel the optimized and non-optimized spends are whole steps between them, and they are within a step of what the ratios say of the channel's part of the budget. With an answer at hand the message is produced exactly under the listed conditions on dates, ratios, curves and grid. Not guaranteed, with proof: a budget of 0 and a target return of 0 are accepted but never run; the reported budget need not be the historical total; outcomes are labelled revenue on a revenue model even when the spec is labelled as not; grid rows are paired wrongly when spend and outcome are missing in different rows.", "quantifier": "all specs and lists of specs, channels, time axes, grids, outcomes and answers of the optimizer", "why_tests_cant": "tests compare messages for mocked optimizers and a few specs; recomputed bounds, duplicate constraints, rounding and missing cells matter only for particular values", "anchors": ["meridian/schema/processors/budget_optimization_processor.py:BudgetOptimizationProcessor", "meridian/schema/processors/budget_optimization_processor.py:BudgetOptimizationSpec", "meridian/schema/processors/budget_optimization_processor.py:ChannelConstraintRel", "meridian/analysis/optimizer.py:FixedBudgetScenario", "meridian/analysis/optimizer.py:get_optimization_bounds"]}
{"id": "C90", "title": "Exported frequency optimizations: the search covers every tenth of the range of the spec, and the message reports an optimum of its own grid with the reach that keeps the impressions", "statement": "A spec is accepted exactly if its dates, names and level are valid, the minimum frequency is not negative and a maximum is not below it. A model without reach and frequency channels is refused; otherwise the output is one message per spec, in order, and groups are distinct. The search is called on the dates, level and KPI of the spec with all the multiples of one tenth between its rounded ends, both included, the upper one being the largest frequency of the model if no maximum is given; the response curves are asked for the same dates. The message carries the resolved dates, the rounded range of each channel, the optimal frequencies, spend, outcomes with intervals and curves channel by channel, and a grid which has for each channel exactly the tenths of the stated range. The optimal frequency of a channel is one of the frequencies of its grid and no cell shows a higher mean return. Reach times frequency stays within one frequency below the impressions of the channel in every cell. Outcomes are labelled by what the model can measure. With nothing missing in the data a message is produced exactly if the dates resolve, the minimum is above 0.05 and, rounded, not above the upper end. Not guaranteed, with proof: the share of spend is a percentage where the message defines a fraction; reach is that of the whole history whatever the dates; the curves ignore the range of frequencies; a minimum of zero, and a minimum above the frequencies of the model, are accepted but never run; a maximum of zero counts as none; spec and outcomes can be labelled with different KPIs.", "quantifier": "all specs and lists of specs, channels, time axes, reach and frequency data and answers of the analyzer", "why_tests_cant": "tests compare messages for a mocked analyzer and one or two ranges; rounding of the range, the ends of the grid, the position of channels and the resolved dates matter only for particular values", "anchors": ["meridian/schema/processors/reach_frequency_optimization_processor.py:ReachFrequencyOptimizationProcessor", "meridian/schema/processors/reach_frequency_optimization_processor.py:ReachFrequencyOptimizationSpec", "meridian/schema/processors/model_processor.py:DatedSpecResolver"]}
{"id": "C91", "title": "New data for an analysis: accepted exactly if it fits the model, completed from the model, with one number of periods throughout; selections mean the selected periods", "statement": "Variables are accepted exactly with the documented numbers of dimensions. New data is accepted exactly if the variables that the analysis uses are ones the model has, with its geos and channels, and, when the number of periods is modified, all used variables which the model has are given for that number of periods; if only used variables are given, this means that they have the periods of the model or that all are given for one number of periods. Where other periods are not allowed it is accepted exactly if the used variables have the model's periods. The analysis uses for each variable what is given and else the data of the model; without new data it uses the data of the model. With modified periods all used variables have the same number of periods. Accepted data is accepted again unchanged. A counterfactual is accepted exactly if its data is and each selection is empty, one flag for each period or dates among those of the periods. With one time coordinate for each period the resolved indices are those of the selected geos and times, and the media of a period is changed exactly if the period is selected. Not guaranteed, with proof: a variable that is not used and reported as ignored can still cause a refusal; the number of time coordinates is not checked for unmodified periods, so that a date can resolve to a period that does not exist, nor in counterfactuals, where one date can change all periods; with modified periods a wrong number ends in an IndexError instead of the message.", "quantifier": "all models, sets of used variables, new data of any shapes, selections of geos and times", "why_tests_cant": "tests give one wrong shape at a time; acceptance depends on the shapes of thirteen variables, on which of them the analysis uses and on the selections together", "anchors": ["meridian/analysis/tensors.py:DataTensors", "meridian/analysis/tensors.py:DataTensorsBuilder", "meridian/analysis/tensors.py:CounterfactualInputs"]}
{"id": "C92", "title": "The tables of the dashboard hold exactly the numbers of the exported model, each in its row and column", "statement": "For a message in which names occur once, the tables made from it are exactly those of its parts and one for each grid, and every one has the documented columns and exactly the rows, in order, that the message determines: the quality of the fit of every data set; expected and actual outcome over time of all data, or else of the first data set; the outcome of baseline, channels and treatments in every analysis; the share in spend and in outcome of every channel, where the shares in the outcome add up to one; the returns of every channel; every cell of every grid; the questions of the optimizations, where the initial spend of a channel is its total in the data over the periods that start between the dates; the answers, with a line for each channel and each kind of outcome; the response curves. The name of the table of a grid is that of the grid with every run of white space replaced by one underscore. A message is converted exactly if its dates exist, there is an analysis ALL with a baseline, every analysis has the outcomes of the kind of that baseline with shares which do not add up to zero, the optimizations name objectives, targets and maximal frequencies, and groups and names of grids are distinct. Not guaranteed, with proof: a budget without constraints is shown without its reach and frequency channels; a channel without an outcome of the kind, which two tables tolerate, and shares that cancel make the whole conversion fail, as do grids whose names differ only in spaces and underscores, a missing analysis ALL and a missing target; the line of all channels is sorted second, not last.", "quantifier": "all messages: any data, numbers of analyses, channels, outcomes, optimizations and names", "why_tests_cant": "tests compare the tables of one fixed message; a swapped column, a boundary of a period or a lost row shows only for other messages", "anchors": ["scenarioplanner/converters/mmm.py", "scenarioplanner/converters/dataframe/dataframe_model_converter.py:DataFrameModelConverter", "scenarioplanner/converters/dataframe/marketing_analyses_converters.py", "scenarioplanner/converters/dataframe/budget_opt_converters.py", "scenarioplanner/converters/dataframe/rf_opt_converters.py"]}
{"id": "C93", "title": "The dashboard generator breaks every analysis into the months, quarters and years of its period, pairs budgets with reach and frequency, and refuses the rest", "statement": "The generator of the dashboard data accepts a list of specs exactly if every one is of an allowed kind with dates of the data, given groups do not repeat, and, for every budget when the model has reach and frequency channels, the maximal frequency is at least one. Then the specs that are run are, in the order of the list, exactly: every model fit unchanged; every marketing analysis once for its whole period under the tag ALL and once for each month, quarter and year of it, tagged with year and name of the period; every budget the same way, where the parts are optimized for their historical budget, with group, name and grid name extended by the tag; and after it, if there are reach and frequency channels, a reach and frequency optimization for each of these with the same group and dates. If the dates of the data are equally spaced, less than nine months apart, every part resolves to exactly the dates between its start and its end, there are some, and all lie in the period of its tag and in the range of the spec. If new identifiers are new, no two budgets share a group. Not guaranteed, with proof: the reach and frequency optimization of a budget for another KPI is for revenue; budgets of one name, whatever their grids, give reach and frequency grids of one name; a maximal frequency that the budget ignores makes the generation fail; with monthly data, and with new data of other dates, the parts do not resolve; two marketing analyses always share the tag ALL.", "quantifier": "all dates of the data, lists of specs, groups, names, new identifiers, choices of months, quarters and years", "why_tests_cant": "tests use one or two specs on one calendar; boundaries of periods, repeated groups and pairings differ for every other calendar and list", "anchors": ["scenarioplanner/mmm_ui_proto_generator.py:MmmUiProtoGenerator", "scenarioplanner/mmm_ui_proto_generator.py:create_mmm_ui_data_proto", "scenarioplanner/mmm_ui_proto_generator.py:create_tag"]}
{"id": "C94", "title": "Arrays without labels become input data with every value at its labels, and are refused when they do not fit", "statement": "A user of the builder for plain arrays who assigns geos (or none for a national model), times and media times and then hands over arrays gets input data exactly if: labels do not repeat, a single geo is called national_geo, times and media times are regularly spaced dates and the extra media times come first; no array is given twice, every array has the shape geos by times by channels with distinct channels; KPI, population (unless national) and paid media or reach and frequency are there; no organic reach is given; the kind of the KPI is known, all values are numbers, those that must not be negative are not, a revenue per KPI is not zero everywhere, and no channel name is used twice. Then the data hold exactly what was given: geos in natural order, times in order of date, and every value at the position of its labels; the population of a national model and the revenue per KPI of a revenue KPI are one. The order of the calls makes no difference. Not guaranteed, with proof: no session with organic reach and frequency ever builds, as the organic frequency gets the name of the organic reach; the flat shapes documented for national models are always refused; a single geo of another name is always refused.", "quantifier": "all geos, times, media times, arrays of any size and sequences of calls; for organic reach, all sessions whatsoever", "why_tests_cant": "tests build a few fixed data sets with sorted labels; every other order of labels moves the values differently, and the checks interact", "anchors": ["meridian/data/nd_array_input_data_builder.py:NDArrayInputDataBuilder", "meridian/data/input_data_builder.py:InputDataBuilder", "meridian/data/input_data.py:InputData"]}
{"id": "C95", "title": "The calibration checks flag exactly the channels with uncertain, implausible or unexplained estimates", "statement": "The high-variance check reports every paid channel with its share of the spend and flags exactly those for which the share times the width of the narrowest interval that holds more than the given fraction of the draws, relative to the median, exceeds the threshold times the prior relative width; its result depends neither on the order of the draws nor on the units of ROI and spend. The implausible-ROI check calls a channel high exactly if mean ROI times share exceeds the upper bound, and low exactly if it is not high, has spend and its mean is below the lower bound times the share. The potential-bias check lists exactly the channels that vary together with some control somewhere and whose correlation with every control in every geo, at the times of the model, is below the threshold, independent of units and of earlier media; its matrix holds every correlation at its labels. Each check asks for a review exactly if it lists a channel, and without controls the potential-bias check asks for controls. Not guaranteed, with proof: a channel with median ROI zero is never found uncertain, however wide its interval; the results report the default bounds and widths instead of the configured ones, so that a channel passes above the reported bound; a channel that does not vary passes as sufficiently correlated; the documentation of the potential-bias check says the opposite of what it flags.", "quantifier": "all posteriors, spends, configurations, media, reach and frequency data and controls of any size", "why_tests_cant": "tests run the checks on a few mocked arrays; that the interval is the narrowest and the flags exact must hold for all draws", "anchors": ["meridian/analysis/review/checks.py:HighVarianceCheck", "meridian/analysis/review/checks.py:ImplausibleROICheck", "meridian/analysis/review/checks.py:PotentialBiasCheck", "meridian/analysis/review/results.py:HighVarianceCheckResult"]}
{"id": "C96", "title": "Loading an xarray dataset keeps every value under its labels", "statement": "A dataset with geos, times and media times is accepted by XrDatasetDataLoader exactly if every array has its documented dimensions, the labels are distinct regular dates and distinct geos, the media times consist of the times and earlier dates, and the required arrays are there; the result then holds exactly the arrays of the dataset, with the same value at every geo, date and channel. Without media times, the media arrays keep all dates, the other arrays keep exactly the dates at which no array other than media misses a value in any geo or channel, the dropped dates all precede the kept ones, and values stay under their labels; in particular one missing value takes the date out of all arrays other than media. A dataset without geos is loaded as one with a single geo named national_geo and population one. A dataset with other names is loaded, with the mapping of its names, as the dataset with the documented names; a mapping to an unknown name or from a missing name is refused. Not guaranteed, with proof: spend by channel alone, which the documentation lists, is always refused.", "quantifier": "all datasets of any size, all labels, values and missing values, and all mappings of names", "why_tests_cant": "tests load a few fixed datasets; which dates survive and that each value stays under its labels must hold for every pattern of missing values and order of labels", "anchors": ["meridian/data/load.py:XrDatasetDataLoader", "meridian/data/load.py:XrDatasetDataLoader.__init__", "meridian/data/load.py:XrDatasetDataLoader.load"]}
{"id": "C97", "title": "What is looked up by the name of a channel belongs to that channel", "statement": "Input data is accepted only if all media, reach-and-frequency, organic and non-media channels have different names, across all types. Then get_media_scaling_factor(name) gives, in each geo, the population times the median of the non-zero values per head of that channel, and multiplying the scaled values of the channel by it gives back the data; it refuses non-media treatments, control variables and unknown names. get_channel_parameters(name) gives the position of the channel in its type, the suffix of its type, the decay function chosen for it by name, and whether it has reach and frequency, and refuses every other name. get_channel_parameter_tensor gives the samples at that position of the tensor of that parameter and type, and refuses a parameter that is not there. The position is the one labelled with the channel's name in prior and posterior samples, every parameter has the dimensions of its type, and every dimension has labels. get_n_top_largest_geos(n) gives n geos, none smaller than one left out. Not guaranteed, with proof: a control variable may share the name of a channel, and then the scaling factor of that channel is refused; a negative number of geos is accepted and leaves out the smallest ones.", "quantifier": "all input data with any number of channels, names and values, all choices of decay functions, all tensors of samples, and all numbers of geos", "why_tests_cant": "tests look up a few channels of one fixture; that position, suffix, factor and label agree must hold for every set of types that is present and every order of names", "anchors": ["meridian/model/context.py:ModelContext.get_media_scaling_factor", "meridian/model/context.py:ModelContext.get_channel_parameters", "meridian/model/context.py:ModelContext.get_channel_parameter_tensor", "meridian/model/context.py:ModelContext.create_inference_data_coords", "meridian/model/context.py:ModelContext.create_inference_data_dims", "meridian/data/input_data.py:InputData._validate_media_channels", "meridian/data/input_data.py:InputData.get_n_top_largest_geos"]}
{"id": "C98", "title": "The samples of a model come from one call of the sampler", "statement": "A successful sample_posterior writes n_keep draws for every chain of every batch, in the order of the batches; draw d of a chain is computed from draw n_burnin + d of that chain in the kernel call of its batch, and the trace and sampling statistics at the same chain and draw belong to the same draw. What it writes does not depend on earlier calls. A call that fails at any point changes nothing; after an interruption each of the posterior, the trace and the statistics is wholly old or wholly new, and prior samples and review are untouched. After any history of prior sampling, posterior sampling and reviews the posterior, trace and statistics all come from the last successful fit. Sampling the prior changes only the prior. A successful review stores the summary of the samples held. A seed is refused exactly if it is a sequence of other than two numbers; with TensorFlow an integer seed gives the samples of the pair of it with itself; with a seed on an ideal generator no two batches of chains and no two draws of the prior share a seed. Not guaranteed, with proof: the review of an earlier fit stays after a new one; after thinning, the draws of the statistics no longer match those of the posterior; and the seed of a batch determines that of the next.", "quantifier": "all kernels, random libraries, lists of numbers of chains, numbers of draws and seeds, all orders in which the groups are replaced, all moments of interruption, and all histories of calls", "why_tests_cant": "tests mock the sampler and run one call on a new object; failures, interruptions and histories are unbounded", "anchors": ["meridian/model/model.py:Meridian.sample_posterior", "meridian/model/model.py:Meridian.sample_prior", "meridian/model/model.py:Meridian.review", "meridian/model/model.py:Meridian.sample_posterior_and_review", "meridian/model/posterior_sampler.py:PosteriorMCMCSampler.__call__", "meridian/backend/__init__.py:_TFRNGHandler", "meridian/backend/__init__.py:_JaxRNGHandler"]}
{"id": "C99", "title": "What the summary page says in words and in its table", "statement": "The summary page of a model is made exactly if every limit given is a date of the data, the first is not after the last, and the dates are regular. It covers exactly the dates between the limits, which are never none, starts at the first of them, and the end it shows is one mean interval after the last, which for equally spaced dates is the day the next period begins. Its charts over time are weekly exactly if fewer than 52 dates are covered. Its accuracy table shows the metrics of the national totals over all geos and the dates covered, one row for each evaluation set, correctly rounded. The sentences name two channels that no other channel exceeds in incremental outcome, and, among the paid channels, one with the highest ROI, effectiveness and marginal ROI and one with the lowest cost per incremental KPI, each with its own value; the frequency sentence names the first reach and frequency channel with the largest spend and its own optimal frequency. Not guaranteed, with proof: for monthly data the end shown can be off by days in either direction; the granularity ignores the spacing of the dates; an error under half a percent is shown as 0% only if there is no holdout; a channel with infinite ROI or with negative cost is named as the best; names of different channels can read the same.", "quantifier": "all lists of dates and limits, all models, holdouts and selections of dates, all metrics of any channels (including infinite and undefined ones), and every correct sort", "why_tests_cant": "tests compare a few pages made from mocked metrics; limits, holdouts, ties, undefined values and cadences are unbounded", "anchors": ["meridian/analysis/summarizer.py:Summarizer._gen_model_results_summary", "meridian/analysis/summarizer.py:Summarizer._predictive_accuracy_table_spec", "meridian/analysis/summarizer.py:Summarizer._create_outcome_contrib_card_html", "meridian/analysis/summarizer.py:Summarizer._create_performance_breakdown_card_html", "meridian/analysis/summarizer.py:Summarizer._select_optimal_rf_data", "meridian/analysis/summarizer.py:Summarizer._get_sorted_posterior_mean_metrics_df", "meridian/analysis/visualizer.py:ModelDiagnostics.predictive_accuracy_table"]}
{"id": "C100", "title": "Array operations give the same with either backend", "statement": "Selecting along an axis by a mask of one axis, or along the first axis by any mask, splitting an axis into sizes that add up to its length, gathering at positions in range and a range of numbers that TensorFlow accepts give the same array with the JAX and the TensorFlow backend. Counting values gives each value once with its number of places in both, in rising order with JAX and in order of appearance with TensorFlow. The columns that a model refuses because a condition holds in every row are exactly these columns, named in the same order with either backend, and the lags of the adstock are the window minus one down to zero in both. Not guaranteed, with proof: a mask of two axes along another than the first axis selects other entries with JAX, without an error; sizes that do not add up, positions out of range and empty ranges are refused by TensorFlow only.", "quantifier": "all arrays of any shape and entries, all masks, axes, sizes, positions and ranges, all lists of values and all conditions on a matrix", "why_tests_cant": "tests run each operation on a few arrays with one backend at a time; shapes, masks and positions are unbounded", "anchors": ["meridian/backend/__init__.py:_jax_boolean_mask", "meridian/backend/__init__.py:_tf_boolean_mask", "meridian/backend/__init__.py:_jax_split", "meridian/backend/__init__.py:_jax_unique_with_counts", "meridian/backend/__init__.py:_tf_unique_with_counts", "meridian/backend/__init__.py:_jax_gather", "meridian/backend/__init__.py:_jax_arange", "meridian/backend/__init__.py:_tf_arange", "meridian/model/context.py:ModelContext._check_if_no_time_variation", "meridian/model/adstock_hill.py:_adstock"]}
{"id": "C101", "title": "The summary of the exploratory report counts what the checks found", "statement": "The report of the exploratory analysis can be made for any data. Its summary has a row for itself and each card, the one of the population unless the model is national; every row shows the number of fails and of reviews of its card, \"Info\" if there are none, and recommends a next step if there are some, and the first row shows the sums. Fails are a KPI without variation and variables inflated over all data; reviews are inconsistent costs, outliers of the cost per unit, treatments or controls without variation or with outliers, a KPI without variation at the level of the data unless it already fails, and variables inflated in single geos only. If a fail is shown the model refuses to sample. If none is shown, no check raises and no pair is too correlated, it samples. The tables of inflated variables list exactly the variables found, those of single geos without those found over all data and never empty, each with the variables it forms an extreme pair with according to the finding of the same severity. A report that is made is in its file. Not guaranteed, with proof: pairs of variables too correlated to sample are not counted, so a report without any fail can describe a model that refuses to sample; findings about reach, frequency and outliers of the KPI are not counted; partners are not named in a geo if all pairs of single geos are also extreme over all data; and if making a report fails, the earlier report in the file is lost.", "quantifier": "all data, specifications, thresholds and outcomes of the checks, all tables of inflated variables and extreme pairs, all states of the file system", "why_tests_cant": "tests build reports from a few mocked outcomes; the agreement with the check before sampling ranges over all data", "anchors": ["meridian/model/eda/meridian_eda.py:MeridianEDA.generate_and_save_report", "meridian/model/eda/meridian_eda.py:MeridianEDA._generate_report_html", "meridian/model/eda/meridian_eda.py:MeridianEDA._generate_summary_card", "meridian/model/eda/meridian_eda.py:MeridianEDA._generate_response_variables_callouts", "meridian/model/eda/meridian_eda.py:MeridianEDA._create_vif_callout", "meridian/model/eda/meridian_eda.py:MeridianEDA._combine_extreme_vif_with_extreme_corr_pairs", "meridian/model/eda/meridian_eda.py:_get_finding", "meridian/model/model.py:Meridian._run_model_fitting_guardrail"]}
{"id": "C102", "title": "Tables and charts of the exploratory report show the worst findings", "statement": "Tables of the exploratory report show five rows, or all if there are less: outliers and inflated variables from the largest down, inconsistent costs by media units and spend, variables below the threshold of variation from the smallest up (never one with an undefined standard deviation), equal ones by name; no row left out comes before a shown one. A note appears exactly if rows are left out and counts the different channels, times and geos. The chart of costs shows at most two channels, all from the shown rows, with the channel of the largest outlier first. The heatmap refuses a limit of one or less, never shows more variables than the limit, shows all pairs between the variables it shows, all pairs of at least some strength if their variables fit into the limit, and no variable without a shown pair at least as strong, up to the tolerance, as any pair left out. Bar charts show the lowest or highest values, by value or absolute value; the shares of the variables add up to one. Box plots show the variables of a geo with the smallest variation. A number of geos is accepted if it is between one and the number of geos and selects those with the largest populations; names are accepted if they are geos of the data and different.", "quantifier": "all tables of findings, correlations, values, populations and limits", "why_tests_cant": "tests compare charts of a few small tables; ties, limits and the greedy choice of variables range over all of them", "anchors": ["meridian/model/eda/meridian_eda.py:MeridianEDA._format_display_table", "meridian/model/eda/meridian_eda.py:MeridianEDA._create_display_limit_message", "meridian/model/eda/meridian_eda.py:MeridianEDA._get_plot_data_for_heatmap", "meridian/model/eda/meridian_eda.py:MeridianEDA._plot_barcharts", "meridian/model/eda/meridian_eda.py:MeridianEDA._calculate_relative_shares", "meridian/model/eda/meridian_eda.py:_prepare_boxplot_sorting_metrics", "meridian/model/eda/meridian_eda.py:_get_sorted_variables", "meridian/model/eda/meridian_eda.py:MeridianEDA._validate_and_get_geos_to_plot", "meridian/model/eda/meridian_eda.py:MeridianEDA.plot_national_kpi_with_knots_time_series"]}
{"id": "C103", "title": "Input data objects and their copies", "statement": "An input data object is made exactly if all its values can be read as numbers and the data are consistent in the sense of C26. It shows the data given, as floats, with geos as strings, and with revenue per KPI of one if the KPI is revenue. Making it changes nothing in existing arrays but the labels of geos of arrays given to it, and those only to the strings of the same labels. A copy is made exactly if the data are consistent at the time of the copy and shows the same data; an object with geos and times that was not changed since it was made can always be copied. A deep copy changes no array of the original, and after any history of changes to both, in place or by assignment, what is done to one never shows in the other. Data can be turned into one dataset exactly if media has spend, reach has frequency and spend and organic reach has frequency, and then it has all arrays that belong together. The scaled and centred KPI has mean zero in each geo. Not guaranteed, with proof: the labels of the caller's arrays are changed in place, also if the constructor raises; objects share the arrays they are made from, and shallow copies those of the original, so changes show in both; a copy of data with revenue as KPI resets the revenue per KPI; and spend without media is left out of the dataset, which cannot be made for media without spend although such data are accepted.", "quantifier": "all stores of arrays, all objects in them with any sharing of arrays, all histories of changes to an object and its copy, all values, labels and dtypes", "why_tests_cant": "tests compare one copy after one change; sharing is a property of all histories of changes to both objects", "anchors": ["meridian/data/input_data.py:InputData.__post_init__", "meridian/data/input_data.py:InputData.copy", "meridian/data/input_data.py:InputData._convert_geos_to_strings", "meridian/data/input_data.py:InputData._coerce_object_arrays_to_float", "meridian/data/input_data.py:InputData._validate_scenarios", "meridian/data/input_data.py:InputData.as_dataset", "meridian/data/input_data.py:InputData.scaled_centered_kpi"]}
{"id": "C104", "title": "Automatic logging of runs", "statement": "With automatic logging on, making a model, sampling its prior and sampling its posterior return the same or raise the same as without it, have the same effect on the object and run once, whatever the tracking service refuses. Making a model in a new run records the versions, every setting of its specification but the priors as a whole, and every prior, each once and with the value in the model; the text recorded for an array determines the array. With any service a run gains only parameters of the model made, with their values, in order. Sampling through the model records every argument with the value given or the default value, except the initial state and the pinned parameters, even if sampling fails. Not guaranteed, with proof: a second model in the same run is not recorded, without a warning; arguments given to a sampler by position are recorded as `default`; metrics that were asked for are never logged by `sample_posterior` of a model, though the documentation shows it; a sampler made from a model logs the metrics of the draws before, at the level of geos and with a holdout those of the training data only.", "quantifier": "all tracking services and what they refuse, all specifications, arguments, models and samplers, all arrays", "why_tests_cant": "tests use one specification and a service that accepts everything; that logging never changes a call is about all points at which logging can fail", "anchors": ["meridian/mlflow/autolog.py:autolog", "meridian/mlflow/autolog.py:_log_model_spec", "meridian/mlflow/autolog.py:_log_priors", "meridian/mlflow/autolog.py:_log_versions", "meridian/model/model.py:Meridian.sample_posterior", "meridian/model/model.py:Meridian.sample_prior", "meridian/model/model.py:Meridian.posterior_sampler_callable"]}
{"id": "C105", "title": "Publication of results in a spreadsheet and a report", "statement": "Uploading tables with different names succeeds exactly if there is at least one and none has the name of the sheet that every new spreadsheet has. Then the spreadsheet has exactly one sheet for each table, in order, with the names of the columns and all rows, blanks for NaN and infinities, and the identifiers returned are those of the sheets. The link to the report, read as any browser reads it, names the spreadsheet, gives each source of the report the sheet of its tab once if there is the tab and not at all otherwise, and carries the address of the spreadsheet unchanged, whatever bytes it has, exactly if there is a tab of budget optimizations; there are as many warnings as parts left out. So each source of the report shows the table uploaded for it. Not guaranteed, with proof: an upload that fails leaves an empty spreadsheet behind; a spreadsheet with reach and frequency optimizations only is not linked to the connector that shows them.", "quantifier": "all tables, names and values, all services that give new sheets unused identifiers, all addresses, all identifiers of letters, digits, - and _", "why_tests_cant": "tests mock the service and compare the link with one string; that it is read back as meant is about all addresses and all sets of tabs", "anchors": ["scenarioplanner/converters/sheets.py:upload_to_gsheet", "scenarioplanner/linkingapi/url_generator.py:create_report_url"]}
{"id": "C106", "title": "Automatic knots of models saved by earlier versions", "statement": "A saved model does not hold its automatic knots: they are computed again when it is loaded, by the rule of the version that saved it. Whatever the version and the data, loading gives increasing knots inside the data with weights that add up to one at every time, at least one knot strictly inside and none at the last time but one; models of version 1.7.0 and earlier get no knot at either end, later ones get one at both. Loading succeeds, or fails with the same error, independently of the version. Version 1.7.1 gives exactly the knots of 1.7.0 and the two ends. Compared with the present rule the earlier one gave at least as many knots inside and at least as close a fit if the mean squared residual with all knots is below 1, and the other way round above 1. Whether the model is national makes no difference. Not guaranteed, with proof: a model of version 1.7.0 or earlier that is loaded, saved and loaded again always has other knots; if their number changed its samples are refused, if not they are silently taken for those of the new knots; a model of 1.7.1 can lose knots in the same way.", "quantifier": "all versions, data, spline fits, residuals and penalties", "why_tests_cant": "tests load one stored model of each version; that the old layout is given back, and that saving again changes it, is about all data sets", "anchors": ["meridian/schema/serde/legacy_aks.py:AKS.automatic_knot_selection", "meridian/schema/serde/legacy_aks_v1_7_1.py:AKS.automatic_knot_selection", "meridian/schema/serde/meridian_serde.py:MeridianSerde.deserialize", "meridian/model/context.py:ModelContext.knot_info"]}
{"id": "C107", "title": "Settings that have no effect, and the warnings about them", "statement": "A prior distribution has an effect on the posterior exactly if the data has channels of its kind, the prior type of these channels asks for it and, if it is about differences between geos, the model is not national; the same holds for samples of the prior except that organic reach and frequency goes by the prior type of organic media. Among the ROI, marginal ROI, contribution and coefficient distributions of the paid channels that there are, the warnings name exactly those that were changed from their defaults and have no effect. In a national model the distributions of differences between geos are zero whatever was given, and a warning names those given another way; the coefficient distribution and one sigma per geo are replaced, and named exactly if they differ. The total media contribution prior is used only without revenue and only in the place of default ROI distributions; the model is refused exactly if that would be so for one of two kinds of paid channels or if a default marginal ROI distribution would be used. The analyzer reports KPI units exactly if there is no revenue or they were asked for and are not revenue, and warns exactly if this is not what was asked for. Not guaranteed, with proof: no warning ever names a distribution of organic or non-media channels, or one of absent channels that the prior type asks for; a selection of geos in a national model gives no warning and the result keeps its geo axis although a warning says the aggregation is reset; with a revenue KPI the warning that revenue_per_kpi is ignored is given also if none was given.", "quantifier": "all model specifications, all distributions, all kinds of data and all arguments", "why_tests_cant": "tests look at one warning at a time; that a distribution changes nothing is about all distributions that could be given", "anchors": ["meridian/model/context.py:ModelContext._warn_setting_ignored_priors", "meridian/model/context.py:ModelContext._validate_roi_priors_non_revenue", "meridian/model/context.py:ModelContext._validate_mroi_priors_non_revenue", "meridian/model/prior_distribution.py:PriorDistribution.broadcast", "meridian/model/posterior_sampler.py:PosteriorMCMCSampler", "meridian/model/prior_sampler.py:PriorDistributionSampler", "meridian/analysis/analyzer.py:Analyzer._use_kpi", "meridian/analysis/analyzer.py:_warn_if_geo_arg_in_kwargs"]}
{"id": "C108", "title": "How the best allocation changes with the budget and with the target", "statement": "On one grid of amounts any two requests, of whatever kind, give allocations of which one is at most the other in every channel: a larger budget, a lower target for the ROI or a lower target for the marginal ROI takes nothing from any channel, whatever the shape of the response. A fixed budget of the amount that a request for a target has spent gives the same allocation. With diminishing returns a target for the marginal ROI gives the most outcome when each unit of spend is counted at the target, among all allocations on the grid, so a target of 1 gives the largest profit. For the whole optimizer, with the same data and settings, a lower target takes nothing from any channel and the non-optimized spend is the same. Not guaranteed, with proof: a scenario accepts a fixed budget of zero and takes it for the historical spend; and since the rounding step jumps with the budget, a larger budget in a new run can spend less on every channel.", "quantifier": "all grids with increasing amounts, all outcomes, budgets, targets, constraints and numbers of channels", "why_tests_cant": "tests compare an allocation with stored numbers; that no pair of requests crosses is about all pairs and all responses", "anchors": ["meridian/analysis/optimizer.py:OptimizationGrid._grid_search", "meridian/analysis/optimizer.py:_exceeds_optimization_constraints", "meridian/analysis/optimizer.py:OptimizationGrid.optimize", "meridian/analysis/optimizer.py:BudgetOptimizer.optimize", "meridian/analysis/optimizer.py:get_round_factor"]}
{"id": "C109", "title": "What an optimization report says about its scenario", "statement": "The limits of spend that the report of an optimization names are the constraints of every channel in percent with the decimals dropped, up to the error of machine arithmetic; they are between 0 and 100 below, never negative above, and a larger constraint never shows a smaller percentage. Without constraints in the request they are 30 percent for a fixed and 100 percent for a flexible budget. When no shares were given and the report says that the non-optimized spend is the historical spend, each channel's differs from it by at most half a rounding step and its share of the tolerance for equal budgets. The response curves of the report are those of the channels with the most optimized spend, six at most. Not guaranteed, with proof: 16 of the whole percentages below and 27 above are shown as one less, so a constraint of 20 percent reads -19% to +19% and one of 10 percent -9% to +10%; a list of equal constraints is not recognized as one; with shares in the request the report still says that the spend is the historical one; and the end of the period is a different day at the head of the page and in the text, and for weekly data neither is the last day.", "quantifier": "all constraints, budgets, spends, shares, outcomes, dates and numbers of channels", "why_tests_cant": "tests compare the text for one scenario; the percentages depend on the rounding of each machine number and the claims on every spend and budget", "anchors": ["meridian/analysis/optimizer.py:OptimizationResults._create_scenario_plan_section", "meridian/analysis/optimizer.py:OptimizationResults._gen_optimization_summary", "meridian/analysis/optimizer.py:OptimizationResults._create_response_curves_section", "meridian/analysis/optimizer.py:_get_spend_bounds", "meridian/analysis/optimizer.py:BudgetOptimizer.optimize"]}
{"id": "C110", "title": "Samples and convergence information of a saved model", "statement": "Every group of samples of a saved model (prior, posterior, trace and any other) comes back under its name with its data and all attributes but the time of creation, in whatever order the entries of the message are visited, and what was loaded is saved again with the same bytes. Saving is refused exactly if the data of some group cannot be written. Convergence information is there exactly if it was asked for and the model has posterior samples; it has the R-hat values of all parameters and the trace of the sampler if there is one; the model is recorded as converged exactly if no R-hat value is above 10 billion, so whenever the health check finds convergence. Not guaranteed, with proof: a model whose R-hat values are all a million, which the health check calls not converged, is recorded as converged, and so is one without any R-hat value.", "quantifier": "all sets of groups with distinct names, all attributes, data, file formats with these laws, orders of the entries, R-hat values and traces", "why_tests_cant": "tests save one fitted model; which groups, attributes and orders occur is not bounded, and the R-hat limit is about all values", "anchors": ["meridian/schema/serde/inference_data.py:InferenceDataSerde", "meridian/schema/serde/meridian_serde.py:MeridianSerde._make_model_convergence_proto", "meridian/analysis/visualizer.py:ModelDiagnostics.plot_rhat_boxplot", "meridian/schema/processors/model_kernel_processor.py:ModelKernelProcessor"]}
{"id": "C111", "title": "Which backend and precision a process uses, and what its models record", "statement": "A program works with JAX at its start exactly if MERIDIAN_BACKEND is the word jax in letters of any size, otherwise with TensorFlow, with a warning exactly if the variable is neither empty nor one of the two words. Whatever a program does, the backend in use is the one selected at the last reload of the backend module, which is the last one accepted before it, and the precision is 64 bits exactly if that was JAX with 64 bits enabled at that moment; both are always known. A refused selection changes nothing. A model saved in one process and loaded in another warns about the backend exactly if the two backends differ and about the precision exactly if the precisions differ; files of earlier versions are silent. The common type of some types is the float type in use exactly if one of them is floating, in any order. On JAX without 64 bits no tensor is made with a type of 64 bits and there is a warning exactly for 64-bit floats without a requested type; with 64 bits numbers keep their types; names stay strings. A container of tensors that JAX takes apart and puts together has every attribute with its own value and no string among its parts, in whatever order they were set. Not guaranteed, with proof: set_backend has no effect on the backend in use without a reload, even as the first statement; MERIDIAN_ENABLE_JAX_X64 is ignored unless MERIDIAN_BACKEND is jax; after the JAX setting is changed the reported precision is not the one of new tensors; a model that is loaded and saved again is recorded as made with the backend that loaded it; complex numbers count as whole numbers; whole numbers of 64 bits are narrowed without a warning.", "quantifier": "all values of the variables, all histories of selections, reloads and changes of the JAX setting, all pairs of processes, all lists of types, all data and requested types, all containers and all replacements of their parts", "why_tests_cant": "each test process has one environment and one backend; the histories and the pairs of processes are not bounded", "anchors": ["meridian/backend/config.py:_initialize_backend", "meridian/backend/config.py:set_backend", "meridian/backend/__init__.py:result_type", "meridian/backend/__init__.py:_jax_convert_to_tensor", "meridian/backend/__init__.py:computation_backend", "meridian/backend/__init__.py:computation_precision", "meridian/backend/__init__.py:ExtensionType", "meridian/model/model.py:Meridian.__init__", "meridian/schema/serde/meridian_serde.py:MeridianSerde.deserialize"]}
{"id": "C112", "title": "Priors and data-check thresholds of saved models, files of earlier versions among them", "statement": "A prior in the enumerated messages of earlier versions is loaded as what its message says for every channel, however deep broadcasts and transformations are nested, with its name, its batch shape and every number converted to the float type in use: one number holds for all channels, a list of bounds goes before the deprecated single bound. Such a file is refused exactly if a distribution or bijector in one of its priors has no type; a prior that it does not give is the default; the deprecated bound is reported exactly if it is given, not zero, and overridden. These messages go before newer ones, and a file with neither is refused. A specification of the data checks comes back exactly from a saved model, every threshold whatever its value and every aggregation function; a threshold that a file does not have is the documented default, and a file without a specification is reported. Priors that are pickled and unpickled are the same, of the same classes with the same parameters, and the pickled state has no distribution object in it. Not guaranteed, with proof: a bound that an earlier file does not give is read as 0, not as unbounded; an overridden bound of 0 is not reported; the functions recorded in a file whose priors are all defaults are not checked; a message without the three thresholds of variance inflation is loaded with 0, not with the default; a distribution under another name, as in a mixture, stays in the pickled state.", "quantifier": "all messages of any nesting, all numbers, lists and channels, all sets of priors in a file, all registries, all thresholds, all subsets of thresholds in a file, all nested distributions", "why_tests_cant": "files of earlier versions hold any nesting of messages and any subset of the fields; tests have a few of them", "anchors": ["meridian/schema/serde/distribution.py:_from_legacy_distribution_proto", "meridian/schema/serde/distribution.py:_from_legacy_bijector_proto", "meridian/schema/serde/distribution.py:DistributionSerde.deserialize", "meridian/schema/serde/eda_spec.py:EDASpecSerde", "meridian/schema/serde/meridian_serde.py:MeridianSerde.deserialize", "meridian/model/prior_distribution.py:PriorDistribution.__getstate__", "meridian/model/prior_distribution.py:PriorDistribution.__setstate__"]}
{"id": "C113", "title": "The table of response curves holds what was asked for", "statement": "`Analyzer.response_curves` gives a table exactly if no multiplier is negative, the requested distribution has been sampled (unless all multipliers are zero) and, when the optimal frequency is asked for in a model with reach and frequency, both distributions have been sampled and some historical frequency is above one. Its multipliers are the given ones (by default 0, 0.2, ..., 2), its spend is the multiplier times the spend of the selection. Every point is zero at multiplier zero and otherwise the mean and the interval, at the requested level and over the draws of the requested distribution, of the incremental outcome of running the channel at that multiple. With the optimal frequency, impressions are shown at frequencies that are best for the posterior mean ROI in the selection among 1, 1.1, ... below the largest frequency, and a posterior curve by reach is nowhere below the one at another frequency of the search. Prior curves, however, use the frequencies of the posterior and can lie below the prior curve at another frequency.", "quantifier": "for all models, data, draws, multipliers, selections, levels and flags", "why_tests_cant": "tests look at shapes and at a few points; the optimum over the grid and the equality for every channel, multiplier and draw range over all inputs", "anchors": ["meridian/analysis/analyzer.py: Analyzer.response_curves", "meridian/analysis/analyzer.py: Analyzer.optimal_freq", "meridian/analysis/analyzer.py: Analyzer.incremental_outcome"]}
{"id": "C114", "title": "Reports write amounts of money in the currency of the data", "statement": "A currency code may be given with white space around it and in small letters: its symbol, whether it is recognised and its normal form are the same. Data is rejected only for a code that is no string, and a string that is not recognised gives one warning. Loaders keep the code; saving and loading keeps the symbol. Without the deprecated argument `currency`, the report of an optimization, the chart of changes of spend and the table of results show what they would show with the symbol of the data; every budget, cost and revenue of the report carries that symbol, and returns and KPI counts do not depend on it. The chart of changes of spend has one bar for each channel with its change, decreases first, and the changes add up to the change of the budget; the slices of the pie are the shares of the channels. The sentences of the results page, however, always write dollars, and the report of an optimization always warns that the argument is deprecated, given or not.", "quantifier": "for all codes, tables of symbols, results and arguments", "why_tests_cant": "tests look at a few codes and one report; the property is about every code, every figure and the relation of all reports to one another", "anchors": ["meridian/common/currency.py: get_currency_symbol, is_valid_currency_code, normalize_currency_code", "meridian/data/input_data.py: InputData._validate_currency_code", "meridian/analysis/optimizer.py: OptimizationResults.output_optimization_summary, plot_spend_delta, plot_budget_allocation", "meridian/analysis/visualizer.py: MediaSummary.summary_table", "meridian/analysis/summary_text.py: PERFORMANCE_BREAKDOWN_INSIGHTS_FORMAT"]}
{"id": "C115", "title": "Filtering a tensor sums the selected geos and times and keeps all other axes", "statement": "A tensor over the times of the model is taken to have a channel axis exactly if its last three axes are the geos, the times and a possible number of channels (media, reach and frequency, both, all treatments, each with or without a total); otherwise its last two axes must be the geos and times, and any other shape is refused. With `flexible_time_dim` the caller says which, and only the number of times is free. The result keeps all axes before and after, and each of its entries is the sum over the selected geos and times, or over the selected times of one geo, or over the selected geos at one time, or the single entry, as asked; geos and times selected by name or by flags are each counted once. With `flexible_time_dim`, however, a list of flags as long as the time axis of the tensor is refused unless the model has as many times; and a tensor without channel axis whose last three axes are all as long as the number of geos is taken for one with a channel axis if that is a possible number of channels and also the number of times, so that other axes are summed without an error.", "quantifier": "for all models, tensors of any rank and shape, selections and settings", "why_tests_cant": "tests use a few shapes with different numbers of geos, times and channels; the property is about all shapes, and the misreading only appears when several numbers coincide", "anchors": ["meridian/analysis/analyzer.py: Analyzer.filter_and_aggregate_by_indices, filter_and_aggregate_geos_and_times, expected_outcome", "meridian/analysis/tensors.py: DataTensorsBuilder._resolve_geo_indices, _resolve_time_indices"]}
{"id": "C116", "title": "The health card and the printed review show every check with its status, its counts and its advice", "statement": "The health card has exactly one row for each result of the review: the checks of the model in the order of the results, then the two checks of channels. A row has a name that identifies the check, a chip with its status and the recommended action; a row of a channel check has the number of channels that passed, of all. The banner and the message say Failed if and only if some check failed. The printed review has four lines for each result, in order, and checks_status gives the status of each check. A check that asks for a review names every channel it is about. Values in a template are escaped if and only if the name of the template ends in .html, .htm or .xml.", "quantifier": "for every list of results with any names of channels, any numbers and any limits, every selection of geos, and every template name", "why_tests_cant": "The tests look at a few results with plain names; names with markup, mixtures of the parts of a message and passing checks with failing channels are not among them.", "anchors": ["meridian/analysis/review/results.py: ReviewSummary, CheckResult.recommendation, GoodnessOfFitCheckResult", "meridian/analysis/review/checks.py: _compute_aggregate_result, _format_roi_channels_msg", "meridian/templates/formatter.py: create_template_env", "meridian/templates/model_health_summary_card.html.jinja", "meridian/templates/chips.html.jinja"]}
{"id": "C117", "title": "A prior declared on the exponent of the binomial decay is the prior the model uses", "statement": "If a distribution without negative values is turned into a prior on alpha for a channel with binomial decay, the result has all its mass above zero and at most one, and the exponent that the model computes from alpha has exactly the declared distribution. The weights of a draw are the binomial weights with the drawn exponent, normalised or not. The log-density of the result is that of the distribution that is sampled. A larger exponent is a smaller alpha. If the argument has negative values the result leaves the range.", "quantifier": "for every measure on the real numbers, every measurable set of exponents, every log-density, window and list of lags", "why_tests_cant": "The tests compare a few samples of a few distributions; equality of the laws and of the density with the law is about every measurable set.", "anchors": ["meridian/model/adstock_hill.py: transform_non_negative_reals_distribution, _map_alpha_for_binomial_decay, compute_decay_weights", "meridian/model/prior_distribution.py: _validate_support"]}
{"id": "C118", "title": "The stacked variables of the exploratory analysis carry their own names", "statement": "Whichever kinds of channels, controls and other treatments are present, at the geo or national level, the stacked arrays behind the correlations, the variance inflation factors, the cost per media unit and the charts contain every channel exactly once, in the order of the kinds, under its own name and with its own series. The stacked spend and media units have the same names in the same order. Stacking arrays is refused exactly if there are none or two of them share a dimension of channels, or if a variable lacks time or geo. The dataset of controls and other treatments is missing exactly if there are neither.", "quantifier": "for every combination of present kinds, every number and names of channels, every type of series, and every list of arrays", "why_tests_cant": "Tests use one or two combinations of kinds; that names and series are collected in two different orders and always agree is about all of them.", "anchors": ["meridian/model/eda/eda_engine.py: stack_variables, _get_vars_from_dataset, EDAEngine.treatment_control_scaled_ds, EDAEngine.all_spend_ds, EDAEngine.paid_raw_media_units_ds, EDAEngine.treatments_without_non_media_scaled_ds, EDAEngine.controls_and_non_media_scaled_ds, EDAEngine.check_population_corr_raw_media"]}
{"id": "C119", "title": "The R-squared tables of the exploratory report have one value for each variable and show the largest", "statement": "If the names of channels and controls differ, each has exactly one R-squared, made of its own series. Input data is accepted exactly if the names of the channels differ; controls are not looked at, and a control named like a channel is pooled with it. Each table shows the five largest values, largest first and missing ones last, or all if there are fewer; the note on the omitted ones appears exactly if some are omitted, with the right number. In the table on the adequacy of the data the number of parameters is the number of geos less one, plus the knots, plus the stacked channels and controls.", "quantifier": "for every combination of kinds of channels and controls, every names and series, every function for R-squared with values in a linear order or missing, every number of rows", "why_tests_cant": "Tests have a few variables with distinct names; ties, missing values, more rows than the limit and equal names are combinations of all sizes.", "anchors": ["meridian/model/eda/eda_engine.py: EDAEngine.check_variable_geo_time_collinearity, EDAEngine.check_data_param_ratio", "meridian/model/eda/meridian_eda.py: MeridianEDA._generate_r_squared_tables, MeridianEDA._generate_data_adequacy_callouts", "meridian/data/input_data.py: InputData._validate_media_channels, InputData.get_all_channels"]}
