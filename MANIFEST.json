{
 "claims": [
  {
   "property": "C01",
   "status": "proved",
   "theorems": [
    "SALib.C01_scale_in_bounds",
    "SALib.C01_scale_monotone"
   ],
   "note": "exact arithmetic over any ordered field"
  },
  {
   "property": "C02",
   "status": "proved",
   "theorems": [
    "SALib.C02_unscale_scale",
    "SALib.C02_scale_unscale"
   ],
   "note": "exact arithmetic"
  },
  {
   "property": "C03",
   "status": "proved",
   "theorems": [
    "SALib.C03_illegal_bounds_rejected",
    "SALib.C01_scale_in_bounds"
   ],
   "note": "rejection iff; acceptance is the existence part of C01/C02"
  },
  {
   "property": "C04",
   "status": "proved",
   "theorems": [
    "SALib.C04_all_unif_is_default"
   ],
   "note": ""
  },
  {
   "property": "C05",
   "status": "proved",
   "theorems": [
    "SALib.C05_accepts_iff",
    "SALib.C05_column_local"
   ],
   "note": "quantile functions are parameters"
  },
  {
   "property": "C06",
   "status": "proved",
   "theorems": [
    "SALib.C06_triang",
    "SALib.C06_triang_two_values",
    "SALib.C06_logunif",
    "SALib.C06_weibull",
    "SALib.C06_weibull_two_values",
    "SALib.C06_norm",
    "SALib.C06_lognorm",
    "SALib.C06_truncnorm",
    "SALib.C06_monotone",
    "SALib.C06_monotone_normal",
    "SALib.C06_logunif_illegal_not_rejected"
   ],
   "note": "closed forms of the SciPy quantile functions; for norm, lognorm and truncnorm ndtri is any inverse of Mathlib's standard normal distribution function (one is shown to exist). Also shown: 'logunif' bounds that are not positive are not rejected."
  },
  {
   "property": "C07",
   "status": "proved",
   "theorems": [
    "SALib.C07_groups_matrix",
    "SALib.C07_partition",
    "SALib.C07_group_names",
    "SALib.C07_define_groups"
   ],
   "note": ""
  },
  {
   "property": "C08",
   "status": "partial",
   "theorems": [
    "SALib.C08_same_group_count_iff",
    "SALib.C08_single_group_mismatch"
   ],
   "note": "The property is false in the code when two or more parameters all carry one label; the exact condition is proved (iff) and the failing case exhibited."
  },
  {
   "property": "C09",
   "status": "proved",
   "theorems": [
    "SALib.C09_read_param_file",
    "SALib.C09_comment_rows",
    "SALib.C09_bad_number_rejected"
   ],
   "note": "csv tokenising is not modelled"
  },
  {
   "property": "C10",
   "status": "proved",
   "theorems": [
    "SALib.C10_size",
    "SALib.C10_saltelli_size"
   ],
   "note": ""
  },
  {
   "property": "C100",
   "status": "proved",
   "theorems": [
    "SALib.C100_mean",
    "SALib.C100_saltelli",
    "SALib.C100_exact",
    "SALib.C100_instance"
   ],
   "note": ""
  },
  {
   "property": "C101",
   "status": "proved",
   "theorems": [
    "SALib.C101_latin_mean",
    "SALib.C101_independent",
    "SALib.C101_linear",
    "SALib.C101_grouped_inputs"
   ],
   "note": ""
  },
  {
   "property": "C102",
   "status": "partial",
   "theorems": [
    "SALib.C102_heatmap_partial",
    "SALib.C102_heatmap_sobol",
    "SALib.C102_heatmap_morris",
    "SALib.C102_heatmap_dgsm",
    "SALib.C102_heatmap_mislabelled",
    "SALib.C102_heatmap_fails",
    "SALib.C102_heatmap_fast",
    "SALib.C102_heatmap_output",
    "SALib.C102_bars",
    "SALib.C102_bars_methods",
    "SALib.C102_plot_sobol",
    "SALib.C102_plot_ff",
    "SALib.C102_morris_bars",
    "SALib.C102_morris_plot",
    "SALib.C102_histograms_partial",
    "SALib.C102_histograms_fail"
   ],
   "note": "False in general: a heat map with a second-order array selected before a vector puts the wrong row labels (C102_heatmap_mislabelled); FAST and RBD-FAST results have no heat map; with groups the columns of a DGSM heat map carry group names; no sample histograms for one or for ten and more parameters. Proved otherwise."
  },
  {
   "property": "C103",
   "status": "proved",
   "theorems": [
    "SALib.C103_delta",
    "SALib.C103_sobol",
    "SALib.C103_errors",
    "SALib.C103_accepts",
    "SALib.C103_local",
    "SALib.C103_few",
    "SALib.C103_constant_input",
    "SALib.C103_constant_output",
    "SALib.C103_conf"
   ],
   "note": "gaussian_kde, the draws and norm.ppf are parameters. Findings: an exception in one mode also drops the later modes and S1 of that input; `notes` is missing when every input fails; a constant output ends methods delta and all with ValueError."
  },
  {
   "property": "C104",
   "status": "proved",
   "theorems": [
    "SALib.C104_settings",
    "SALib.C104_rows",
    "SALib.C104_results",
    "SALib.C104_sum",
    "SALib.C104_sum_exact",
    "SALib.C104_single",
    "SALib.C104_all_rows",
    "SALib.C104_table",
    "SALib.C104_enhanced"
   ],
   "note": "The solver of the regularised systems, the F quantiles, the permutations and the normal quantile are parameters. Findings: the sums are reported with half width 0 whatever the fits; S sums to R/(R-1) times the share explained; rows are drawn without replacement, so R = N gives intervals of width 0. Enhanced HDMR: order 2, the results from the indices on."
  },
  {
   "property": "C105",
   "status": "partial",
   "theorems": [
    "SALib.C105_lines",
    "SALib.C105_select_partial",
    "SALib.C105_select_fail",
    "SALib.C105_printing_drops_sums",
    "SALib.C105_enhanced_lines",
    "SALib.C105_enhanced_fail"
   ],
   "note": "False as stated: the number printed as selections of term i is the marker of term i/K in fit i%K; printing removes the sums from the result; enhanced HDMR prints totals for the inputs and no other terms only for three inputs."
  },
  {
   "property": "C106",
   "status": "partial",
   "theorems": [
    "SALib.C106_rounding",
    "SALib.C106_in_bounds_partial",
    "SALib.C106_order",
    "SALib.C106_exact_width",
    "SALib.C106_above",
    "SALib.C106_unscale"
   ],
   "note": "Any binary format with gradual underflow; overflow is not modelled. False as stated: bounds -5 and 0.2 send unit value 1 above 0.2. The lower bound, the order, a bound on the error and the upper bound for x <= 1 - 2^(1-p) or an exact width are proved."
  },
  {
   "property": "C107",
   "status": "proved",
   "theorems": [
    "SALib.C107_int_div",
    "SALib.C107_int_div_limit",
    "SALib.C107_counts",
    "SALib.C107_frequencies",
    "SALib.C107_lower_frequency"
   ],
   "note": "For outputs of fewer than 2^p entries. NumPy's linspace is modelled by its documented arithmetic. Finding: FAST frequencies may be one lower than the exact ones."
  },
  {
   "property": "C108",
   "status": "proved",
   "theorems": [
    "SALib.C108_bits",
    "SALib.C108_sequence",
    "SALib.C108_skip"
   ],
   "note": "The rounded quotient of logarithms is a parameter within 2^-32 of the exact one."
  },
  {
   "property": "C109",
   "status": "proved",
   "theorems": [
    "SALib.C109_unit",
    "SALib.C109_scaled",
    "SALib.C109_effects",
    "SALib.C109_inert",
    "SALib.C109_tiny"
   ],
   "note": "Without optimisation (which picks among the trajectories), uniform inputs, effects not scaled. C109_tiny shows that the lower limit on the width is needed."
  },
  {
   "property": "C11",
   "status": "proved",
   "theorems": [
    "SALib.C11_cross_design",
    "SALib.C11_saltelli",
    "SALib.C11_sobol"
   ],
   "note": "the base sequence is a parameter of the model; Sobol sequence itself is C19-C23"
  },
  {
   "property": "C110",
   "status": "proved",
   "theorems": [
    "SALib.C110_unit",
    "SALib.C110_scaled",
    "SALib.C110_stratum",
    "SALib.C110_one"
   ],
   "note": "Uniform inputs. C110_stratum shows that the exact strata of C25 are not kept, C110_one that the value 1 can occur."
  },
  {
   "property": "C111",
   "status": "proved",
   "theorems": [
    "SALib.C111_sobol_exact",
    "SALib.C111_sample",
    "SALib.C111_step",
    "SALib.C111_vi",
    "SALib.C111_linear",
    "SALib.C111_index",
    "SALib.C111_conf",
    "SALib.C111_nonneg",
    "SALib.C111_lost",
    "SALib.C111_ignored"
   ],
   "note": "C111_step and C111_lost show when a step is lost and the statistics stop being finite."
  },
  {
   "property": "C112",
   "status": "proved",
   "theorems": [
    "SALib.C112_saltelli",
    "SALib.C112_sobol"
   ],
   "note": ""
  },
  {
   "property": "C113",
   "status": "proved",
   "theorems": [
    "SALib.C113_accuracy",
    "SALib.C113_conf",
    "SALib.C113_nonneg",
    "SALib.C113_neg",
    "SALib.C113_ignored",
    "SALib.C113_pipeline",
    "SALib.C113_constant",
    "SALib.C113_constant_nan"
   ],
   "note": "C113_constant and C113_constant_nan show that the result for constant outputs depends on rounding."
  },
  {
   "property": "C114",
   "status": "proved",
   "theorems": [
    "SALib.C114_accuracy",
    "SALib.C114_conf",
    "SALib.C114_scaled",
    "SALib.C114_dominates",
    "SALib.C114_neg",
    "SALib.C114_ignored",
    "SALib.C114_monotone"
   ],
   "note": ""
  },
  {
   "property": "C115",
   "status": "proved",
   "theorems": [
    "SALib.C115_unit",
    "SALib.C115_sample",
    "SALib.C115_above"
   ],
   "note": "C115_above shows why the upper bound needs its condition: a sample value above the bound."
  },
  {
   "property": "C116",
   "status": "partial",
   "theorems": [
    "SALib.C116_distributed_partial",
    "SALib.C116_refuses",
    "SALib.C116_arguments_fail",
    "SALib.C116_servers_fail"
   ],
   "note": "True without additional arguments and with a list of servers; additional arguments never reach the model and the default servers=None always raises TypeError (both proved)."
  },
  {
   "property": "C117",
   "status": "partial",
   "theorems": [
    "SALib.C117_tables_partial",
    "SALib.C117_single",
    "SALib.C117_none",
    "SALib.C117_repeated_fail",
    "SALib.C117_interrupted_fail"
   ],
   "note": "True for distinct output names and an analysis that succeeded; with a repeated name, or after an analysis that raised half way, tables are missing without an exception (both proved)."
  },
  {
   "property": "C118",
   "status": "partial",
   "theorems": [
    "SALib.C118_spread_partial",
    "SALib.C118_order",
    "SALib.C118_flat",
    "SALib.C118_centre",
    "SALib.C118_mean_fail",
    "SALib.C118_opposite_fail"
   ],
   "note": "The confidence values are the spreads of the indices of the resamples, but the resampled indices do not estimate the index of the block: on average they are M/h and 1 - floor(omega/2)/h for every model and every order of the outputs, and blocks with S1 = 1 and S1 = 0 get confidence values of the same distribution (all proved)."
  },
  {
   "property": "C119",
   "status": "proved",
   "theorems": [
    "SALib.C119_rbd",
    "SALib.C119_fast",
    "SALib.C119_delta"
   ],
   "note": "Exact averages over all assignments of the outputs to the rows; FAST for blocks of odd length."
  },
  {
   "property": "C12",
   "status": "proved",
   "theorems": [
    "SALib.C12_reads_right_rows",
    "SALib.C12_end_to_end"
   ],
   "note": ""
  },
  {
   "property": "C120",
   "status": "proved",
   "theorems": [
    "SALib.C120_morris",
    "SALib.C120_dgsm",
    "SALib.C120_size"
   ],
   "note": "Exact averages over all index arrays the generator can draw, each equally likely."
  },
  {
   "property": "C121",
   "status": "proved",
   "theorems": [
    "SALib.C121_value",
    "SALib.C121_units",
    "SALib.C121_range",
    "SALib.C121_place",
    "SALib.C121_ranking_fail",
    "SALib.C121_ranking_docs",
    "SALib.C121_sample"
   ],
   "note": "Real arithmetic; C121_ranking_fail shows that the order of the scaled effects on one trajectory need not be the order of influence, C121_ranking_docs that the ranking of mu_star then differs, against the docstring."
  },
  {
   "property": "C122",
   "status": "proved",
   "theorems": [
    "SALib.C122_limit",
    "SALib.C122_group",
    "SALib.C122_inert",
    "SALib.C122_own",
    "SALib.C122_null",
    "SALib.C122_never_zero"
   ],
   "note": "Real arithmetic; independent rows with a common law, inputs without atoms; groups in C122_group; ks_2samp as the largest distance of the empirical distribution functions."
  },
  {
   "property": "C123",
   "status": "proved",
   "theorems": [
    "SALib.C123_settings",
    "SALib.C123_rows",
    "SALib.C123_finishes",
    "SALib.C123_results",
    "SALib.C123_fit",
    "SALib.C123_basis",
    "SALib.C123_projection",
    "SALib.C123_shares",
    "SALib.C123_orthonormal",
    "SALib.C123_independent",
    "SALib.C123_grid"
   ],
   "note": "Exact arithmetic; the linear solver, D-MORPH, the F quantile and the random orders are parameters; C123_projection and C123_independent assume a solver that solves every regular system; a nan in the basis matrix counts as raising."
  },
  {
   "property": "C124",
   "status": "proved",
   "theorems": [
    "SALib.C124_file",
    "SALib.C124_decimal",
    "SALib.C124_error",
    "SALib.C124_exact",
    "SALib.C124_lossless",
    "SALib.C124_distinct",
    "SALib.C124_bounds",
    "SALib.C124_morris",
    "SALib.C124_delta",
    "SALib.C124_lost",
    "SALib.C124_precision_fail",
    "SALib.C124_bounds_fail",
    "SALib.C124_arguments_fail"
   ],
   "note": "Texts of NumPy and Python modelled from their documented behaviour: printing rounds half to even, reading rounds to the nearest binary64; one character as delimiter; no nan, no overflow. The *_fail theorems are the losses named in the statement."
  },
  {
   "property": "C125",
   "status": "proved",
   "theorems": [
    "SALib.C125_limit",
    "SALib.C125_reported",
    "SALib.C125_below",
    "SALib.C125_independent",
    "SALib.C125_linear"
   ],
   "note": "Rows independent with any joint distribution (inputs may be dependent); the analysed input has no value of positive probability; output not constant, with finite fourth moment. All draws of resampled rows equally likely."
  },
  {
   "property": "C126",
   "status": "proved",
   "theorems": [
    "SALib.C126_meaning",
    "SALib.C126_value",
    "SALib.C126_limit",
    "SALib.C126_inert"
   ],
   "note": "scipy.stats.qmc.discrepancy transcribed for two columns, as in C87. The boxes of each method are given in Spec/DiscMeaning.lean. C126_limit: rows independent with any joint distribution inside the bounds, bounded output, total limit not 0."
  },
  {
   "property": "C127",
   "status": "proved",
   "theorems": [
    "SALib.C127_limit",
    "SALib.C127_reported",
    "SALib.C127_below",
    "SALib.C127_harmonics",
    "SALib.C127_independent",
    "SALib.C127_linear"
   ],
   "note": "scipy.signal.periodogram transcribed, np.argsort any sorting permutation, as in C42 and C43. Random rows with any joint distribution in which the analysed input has no value of positive probability; output with a positive finite variance. C127_reported: resamples of the size the code draws."
  },
  {
   "property": "C128",
   "status": "proved",
   "theorems": [
    "SALib.C128_value",
    "SALib.C128_greatest",
    "SALib.C128_average_X",
    "SALib.C128_average_Y",
    "SALib.C128_limit_X",
    "SALib.C128_limit_Y",
    "SALib.C128_zero",
    "SALib.C128_invariant",
    "SALib.C128_rows"
   ],
   "note": "SciPy's cramervonmises_2samp(...).statistic transcribed (average ranks for ties). C128_value, C128_greatest and the averages: samples without ties; limits: random rows in which the input (or output) that is cut into bins takes no value with positive probability. C128_invariant and C128_rows: ties allowed."
  },
  {
   "property": "C129",
   "status": "partial",
   "theorems": [
    "SALib.C129_pawn_levels",
    "SALib.C129_pawn_error",
    "SALib.C129_pawn_partial",
    "SALib.C129_pawn_fail",
    "SALib.C129_rsa_partial",
    "SALib.C129_rsa_excess",
    "SALib.C129_rsa_fail",
    "SALib.C129_dyadic"
   ],
   "note": "The property is false of the code: np.arange rounds the number of levels. PAWN raises ValueError for S = 6, 9, 21, 24, 28, 29, 30 (C129_pawn_fail); RSA with 49, 98, 103, 107 bins leaves out the largest sample and to_df raises (C129_rsa_fail, C129_rsa_excess). Proved: exactly when it happens, for up to 2^49 slices or bins; that everything is as asked otherwise (C129_pawn_partial, C129_rsa_partial); never for powers of two (C129_dyadic). NumPy's arange transcribed with the rounding of every operation; quantiles at the rounded levels exact."
  },
  {
   "property": "C13",
   "status": "partial",
   "theorems": [
    "SALib.C13_ignored_factor_partial",
    "SALib.C13_second_position_fails"
   ],
   "note": "S1, ST and S2 with the ignored factor in first position are zero; S2 with the ignored factor in second position is not zero in general, and the failing case is exhibited."
  },
  {
   "property": "C130",
   "status": "partial",
   "theorems": [
    "SALib.C130_accept",
    "SALib.C130_shares",
    "SALib.C130_saltelli",
    "SALib.C130_sobol",
    "SALib.C130_latin_partial",
    "SALib.C130_morris_partial",
    "SALib.C130_ff",
    "SALib.C130_groups",
    "SALib.C130_reject",
    "SALib.C130_norm"
   ],
   "note": "The property is false of the code: scaling rounds, so that a sample at the upper end of its range can lie above the bound (-5 to 0.2 gives 0.20000000000000018), and qmc.scale then raises ValueError for the package's own fractional factorial, Morris and Latin hypercube samples (C130_reject); samples of a normal parameter are rejected because its bounds are mean and standard deviation (C130_norm). Proved: the analysis itself adds no rejection (C130_accept), values and their sum up to rounding (C130_shares), groups get the mean of their members up to rounding (C130_groups), Saltelli and Sobol samples always accepted, Latin and Morris samples if the widths need no rounding, FF exactly when (hi - lo) + lo, rounded, stays within the bound. SciPy's qmc.scale and the check of qmc.discrepancy transcribed; what qmc.discrepancy computes is a parameter."
  },
  {
   "property": "C131",
   "status": "partial",
   "theorems": [
    "SALib.C131_exact",
    "SALib.C131_sobol_partial",
    "SALib.C131_linear",
    "SALib.C131_two",
    "SALib.C131_three",
    "SALib.C131_shared",
    "SALib.C131_inconsistent",
    "SALib.C131_inconsistent_large"
   ],
   "note": "The property is false of the code: with fewer than D - 1 free frequencies, which the sampler allows, two inputs share one and a linear model gets S1 = ST = 1 for an input whose Sobol indices are 1/3 (C131_shared); with four inputs the equally spaced frequencies 1, (m+1)/2, m interfere for arbitrarily large N, and a model of degree 2 gets 4/5 instead of 4/7 (C131_inconsistent, C131_inconsistent_large). Proved for all polynomials of degree at most M in the sines of the inputs: the exact value of both indices (C131_exact), and that they are the Sobol indices whenever the frequencies do not interfere up to twice the degree (C131_sobol_partial): always for two inputs, for three inputs if N > 8 M^3, for linear models if D - 1 frequencies are free. Real numbers, no rounding."
  },
  {
   "property": "C132",
   "status": "partial",
   "theorems": [
    "SALib.C132_evaluate",
    "SALib.C132_refused",
    "SALib.C132_effects",
    "SALib.C132_listed_partial",
    "SALib.C132_stated"
   ],
   "note": "The property is false of the code as far as the list called analytic goes: it contains the first-order indices for inputs with standard deviation 1 (C132_listed_partial, to 2e-5), while the problem stated beside it has standard deviation 0.835, for which the indices are others, for instance 0.1552 instead of 0.1357 for x12 (C132_stated, all fifteen to 1e-6). Proved for all inputs: evaluate computes the published function, fails only with a ValueError and only for mismatched shapes; and closed forms of the variance, of the effect of every set of inputs and of every total effect, for any number of independent normal inputs with mean 0, any variances and any coefficients. Real numbers, no rounding; nonzero means are not covered."
  },
  {
   "property": "C133",
   "status": "partial",
   "theorems": [
    "SALib.C133_trials_partial",
    "SALib.C133_trials_fail",
    "SALib.C133_regressions",
    "SALib.C133_test",
    "SALib.C133_test_fail",
    "SALib.C133_test_stale",
    "SALib.C133_covariance",
    "SALib.C133_outputs_partial",
    "SALib.C133_outputs_fail"
   ],
   "note": "The property is false of the code: the plot of an HDMR result fails for 81 of the 100 accepted numbers of bootstrap trials (more than ten and no multiple of ten, C133_trials_fail), and after emulate without observations (C133_test_fail), or shows the new values against old observations (C133_test_stale); the covariance plot of a Morris analysis never shows a group of two or more inputs (C133_covariance); with several outputs RSA and HDMR results are not drawn (C133_outputs_fail). Proved otherwise, for all data. matplotlib and the bar chart drawn first by the HDMR plot are outside."
  },
  {
   "property": "C134",
   "status": "partial",
   "theorems": [
    "SALib.C134_methods_partial",
    "SALib.C134_other_module_fail",
    "SALib.C134_import_fail",
    "SALib.C134_same_name",
    "SALib.C134_sample",
    "SALib.C134_evaluate",
    "SALib.C134_signatures",
    "SALib.C134_analyze_partial",
    "SALib.C134_positional_fail",
    "SALib.C134_given",
    "SALib.C134_summary",
    "SALib.C134_summary_tables"
   ],
   "note": "The property is false of the code: arguments by position come before the problem in every analysis method, so that they are always a TypeError (C134_positional_fail); a module importable under the bare name of the sub-package morris that has modules of its own, or raises when imported, makes every ProblemSpec fail (C134_other_module_fail, C134_import_fail). Proved otherwise: one method per module, each calling its function, for all directories; keywords reach the parameter they name for every analysis signature; the printed summary for all sequences of operations. How pandas prints a table is outside."
  },
  {
   "property": "C135",
   "status": "partial",
   "theorems": [
    "SALib.C135_generator",
    "SALib.C135_repeatable",
    "SALib.C135_instance_fail",
    "SALib.C135_calls",
    "SALib.C135_idle_counts",
    "SALib.C135_int",
    "SALib.C135_npint_fail",
    "SALib.C135_npint_partial",
    "SALib.C135_agrees",
    "SALib.C135_global_refuses",
    "SALib.C135_global_moved",
    "SALib.C135_sobol_analysis",
    "SALib.C135_hdmr",
    "SALib.C135_bit_generator",
    "SALib.C135_array_fail",
    "SALib.C135_sequences",
    "SALib.C135_global_list"
   ],
   "note": "The property is false of the code: a generator given as seed is not used itself, as the documentation says, but a child of it, so that draws from it make no difference (C135_instance_fail), and integers of NumPy are refused by all functions with handle_seed (C135_npint_fail). Proved otherwise for all libraries, objects and sequences of calls: which child each call draws from, that no stream of the caller is moved, what the other functions do with generators, bit generators, seed sequences, lists and arrays, and agreement with the integer seeds of C64 and C86."
  },
  {
   "property": "C136",
   "status": "proved",
   "theorems": [
    "SALib.C136_first",
    "SALib.C136_second",
    "SALib.C136_size",
    "SALib.C136_morris"
   ],
   "note": "Hoeffding's inequality for sums over independent rows, carried through the variance, the estimators and the division by the variance. Each theorem speaks about the whole run of the modelled code, and bounds the probability that the run fails or that any reported index is off by more than epsilon. The draws are independent with the declared law (random base rows for Sobol, fair draws for Morris); the low-discrepancy sequence itself is the subject of C99 and C100."
  },
  {
   "property": "C137",
   "status": "partial",
   "theorems": [
    "SALib.C137_listed",
    "SALib.C137_spelled",
    "SALib.C137_only",
    "SALib.C137_dash",
    "SALib.C137_help",
    "SALib.C137_saltelli_seed_fail"
   ],
   "note": "The property is false of the code in one point: the Saltelli sampler takes its option --seed away, so that every line with it is refused, among them the one in examples/sobol/sobol.sh (C137_saltelli_seed_fail). The rest is proved for all methods and all words: every spelling of options and values is read as these (C137_spelled), nothing that is not such a spelling is run (C137_only), a value that looks like an option is refused and never taken for something else (C137_dash). The word -- is left out of the model."
  },
  {
   "property": "C138",
   "status": "proved",
   "theorems": [
    "SALib.C138_finite",
    "SALib.C138_lost",
    "SALib.C138_first_row",
    "SALib.C138_accuracy",
    "SALib.C138_instance"
   ],
   "note": "On the sampler's own points, no randomness. A step is lost exactly when a base value is zero or the first row of the sequence is used at a bound that is not positive; with 2^s rows skipped this depends on where zero lies in the range (C138_finite, C138_lost, C138_first_row). C138_accuracy: explicit distances of vi and dgsm from the derivative-based values, and the total index as a lower bound up to that distance. The number of bits used by the generator is a parameter that must cover the number of rows."
  },
  {
   "property": "C139",
   "status": "proved",
   "theorems": [
    "SALib.C139_pawn_rows",
    "SALib.C139_pawn_latin",
    "SALib.C139_discrepancy_rows",
    "SALib.C139_discrepancy_latin",
    "SALib.C139_delta_rows",
    "SALib.C139_delta_latin",
    "SALib.C139_rsa_rows_X",
    "SALib.C139_rsa_rows_Y",
    "SALib.C139_rsa_latin_X",
    "SALib.C139_rsa_latin_Y"
   ],
   "note": "Analyses of given data on the library's own Latin hypercube samples and on independent rows: a constant C such that the report of `analyze` is farther than eps from its limit with probability at most C/N. The rows of a Latin hypercube sample are dependent, so the limits for independent rows do not apply to them; the proof goes through the variance of means over the design. The constant depends on the model and on eps and is not computed. Delta: the first-order index, with all but a share eps of the resampling draws, for outputs with an eighth moment; the problem of the Latin samples has no groups and no dists."
  },
  {
   "property": "C14",
   "status": "proved",
   "theorems": [
    "SALib.C14_nonneg",
    "SALib.C14_kept",
    "SALib.C14_resampled"
   ],
   "note": "serial and parallel; sqrt >= 0 and norm.ppf monotone with ppf(1/2)=0 are hypotheses"
  },
  {
   "property": "C140",
   "status": "proved",
   "theorems": [
    "SALib.C140_rbd_latin",
    "SALib.C140_rbd_range",
    "SALib.C140_rbd_first_order"
   ],
   "note": "RBD-FAST on the library's own Latin hypercube samples: a constant C such that a reported first-order index is farther than eps from the share of the variance in the first M harmonics of its input with probability at most C/N. For outputs with a fourth moment and positive variance, problems without groups and dists. The constant is not computed. C127 has the limits for independent rows."
  },
  {
   "property": "C141",
   "status": "proved",
   "theorems": [
    "SALib.C141_coverage",
    "SALib.C141_constant"
   ],
   "note": "Limit as both the number of trajectories and the number of resamples grow; a fixed number of resamples is the subject of C145. The resamples are assumed uniform and independent of the trajectories (the two functions have their own generators); the resamples of different inputs may depend on each other. z is any number at which the standard normal distribution function is 1/2 + conf/2, as SciPy's norm.ppf delivers up to rounding. Problems without dists, sampled without optimal trajectories."
  },
  {
   "property": "C142",
   "status": "proved",
   "theorems": [
    "SALib.C142_influential",
    "SALib.C142_interacting",
    "SALib.C142_inert",
    "SALib.C142_first",
    "SALib.C142_total",
    "SALib.C142_second"
   ],
   "note": "Limit as the number of rows N and the number of resamples R grow with R at most N; a fixed number of resamples is the subject of C144. The base rows are independent draws of the inputs, as a Monte-Carlo sample in the Saltelli layout; the points of the Sobol sequence, which sobol.sample uses, are not independent and are not covered. The resamples are assumed uniform and independent of the rows. The excluded case of C142_first and C142_total, in which the numerator term of almost every row is the index times the variance term of that row, is shown to occur only for inputs without influence (C142_influential); for these the interval is the single point 0 (C142_inert). The excluded case of S2 is shown not to occur when the second-order index is not 0 (C142_interacting); without interaction it remains a hypothesis of C142_second: there the linear term of the error vanishes and the limit need not be normal. z is any number at which the standard normal distribution function is 1/2 + conf/2. Serial computation (C18 relates the parallel one)."
  },
  {
   "property": "C143",
   "status": "partial",
   "theorems": [
    "SALib.C143_vi_partial",
    "SALib.C143_dgsm",
    "SALib.C143_units_fail"
   ],
   "note": "The property is false of the code: dgsm_conf is the bootstrap width of vi and is reported as that of dgsm. Proved: vi plus or minus dgsm_conf contains the mean squared difference quotient with a probability that tends to the confidence level (C143_vi_partial); dgsm plus or minus dgsm_conf contains the index of the quotients with a probability that tends to 2 Phi(z s / t) - 1, with s the standard deviation of the squared quotients and t that of the index terms (C143_dgsm); by the choice of the unit of the output this limit comes below every positive number and above every number less than 1, for every model with bounded outputs and quotients whose two variances are positive (C143_units_fail). The base points are independent and uniform; the points of the Sobol sequence, which finite_diff.sample uses, are not independent and are not covered. The index is that of the difference quotients over the step used (C98 relates it to the derivative)."
  },
  {
   "property": "C144",
   "status": "proved",
   "theorems": [
    "SALib.C144_influential",
    "SALib.C144_interacting",
    "SALib.C144_below",
    "SALib.C144_rate",
    "SALib.C144_many",
    "SALib.C144_short",
    "SALib.C144_enough",
    "SALib.C144_more",
    "SALib.C144_two",
    "SALib.C144_fewest",
    "SALib.C144_default",
    "SALib.C144_default_second"
   ],
   "note": "For every fixed number R of resamples, at least 2, the coverage of S1 and ST of every input or group with influence tends, as N grows, to studentWithin R z: the probability that a standard normal number is at most z times the sample standard deviation of R others, z being the factor the code takes from the normal distribution (C144_influential). The same for S2 of every pair whose second-order index is not 0 (C144_interacting). That probability is below conf for every R (C144_below) by at most (1+z^2)/(2(R-1)) (C144_rate), and tends to conf as R grows (C144_many), so the intervals fall short of conf by an amount that does not vanish however many rows are drawn (C144_short). From N on they contain the index with a probability of at least conf - (1+z^2)/(2(R-1)) - epsilon (C144_enough). The limit does not decrease with R (C144_more). With two resamples it is 2/pi arctan z (C144_two), less than 72% at level 95% (C144_fewest); with the defaults, 100 resamples at 95%, or more resamples, the coverage is between 92% and 95% for all large N (C144_default, C144_default_second). Base rows are independent draws; Saltelli's rows from the Sobol sequence are not independent and are not covered. Numbers are real."
  },
  {
   "property": "C145",
   "status": "proved",
   "theorems": [
    "SALib.C145_fixed",
    "SALib.C145_short",
    "SALib.C145_enough",
    "SALib.C145_default",
    "SALib.C145_group",
    "SALib.C145_group_short",
    "SALib.C145_group_enough",
    "SALib.C145_group_better",
    "SALib.C145_group_default"
   ],
   "note": "For an input which is not grouped with others and whose absolute effect varies over the level grid, the coverage of mu_star with a fixed number R of resamples tends, as the number of trajectories grows, to studentWithin R z (C145_fixed), which is below conf by an amount that does not vanish (C145_short). For a group of m inputs with independent resamples the limit is studentGroup m R z, the mean of m standard deviations in place of one (C145_group), also below conf (C145_group_short). Both limits are at least conf - (1+z^2)/(2(R-1)) (C145_enough, C145_group_enough), and that of a group at least that of an input on its own (C145_group_better). From 100 resamples on at 95% the coverage is between 92% and 95% for all large N (C145_default, C145_group_default). Trajectories and resamples are fair independent draws; no optimal trajectories. Numbers are real."
  },
  {
   "property": "C146",
   "status": "proved",
   "theorems": [
    "SALib.C146_vi",
    "SALib.C146_short",
    "SALib.C146_enough",
    "SALib.C146_default",
    "SALib.C146_dgsm"
   ],
   "note": "With a fixed number R of resamples the coverage of vi with dgsm_conf tends, as the number of points grows, to studentWithin R z (C146_vi), which is below conf by an amount that does not vanish (C146_short) and at most (1+z^2)/(2(R-1)) (C146_enough). The coverage of dgsm with dgsm_conf tends to studentWithin R (z s / t), s the standard deviation of the squared quotients and t that of the index terms (C146_dgsm): the width is the one of vi, as in C143. Points are independent and uniform; the rows of the Sobol sequence which the code draws are not independent and are not covered. Numbers are real."
  },
  {
   "property": "C147",
   "status": "proved",
   "theorems": [
    "SALib.C147_error",
    "SALib.C147_exact",
    "SALib.C147_linear",
    "SALib.C147_reject",
    "SALib.C147_constant_fail"
   ],
   "note": "Every operation of analyze/ff.py rounds as in a binary floating point format (overflow left out); the order in which np.dot adds is a parameter, for each column its own. The bound is against the exact contrast. C147_linear is about the sample with its rounding (ffSampleFl), outputs that are linear in the sampled values up to an error eps, and the analysis. C147_constant_fail shows by one case that the bound cannot be replaced by 0."
  },
  {
   "property": "C15",
   "status": "proved",
   "theorems": [
    "SALib.C15_affine_invariance"
   ],
   "note": "serial and parallel, whole result"
  },
  {
   "property": "C16",
   "status": "partial",
   "theorems": [
    "SALib.C16_constant_gives_nan",
    "SALib.C16_estimators_zero_partial"
   ],
   "note": "The property is false in the code: normalisation divides by a zero standard deviation and every index is nan. The estimators themselves do return zero on constant input."
  },
  {
   "property": "C17",
   "status": "partial",
   "theorems": [
    "SALib.C17_parallel_result",
    "SALib.C17_parallel_eq_serial_partial",
    "SALib.C17_kept_resamples_differ",
    "SALib.C17_constant_resample_differs"
   ],
   "note": "The exact parallel result is proved for every worker count and merge order. It equals the serial one except for kept resamples (zeros) and the S1/ST confidence of a degenerate resample (nan instead of 0); both differences are exhibited."
  },
  {
   "property": "C18",
   "status": "proved",
   "theorems": [
    "SALib.C18_size_check"
   ],
   "note": ""
  },
  {
   "property": "C19",
   "status": "proved",
   "theorems": [
    "SALib.C19_range",
    "SALib.C19_reject"
   ],
   "note": "for every table of the documented form; L is any bit count with N <= 2^L"
  },
  {
   "property": "C20",
   "status": "proved",
   "theorems": [
    "SALib.C20_stratified"
   ],
   "note": ""
  },
  {
   "property": "C21",
   "status": "proved",
   "theorems": [
    "SALib.C21_prefix"
   ],
   "note": ""
  },
  {
   "property": "C22",
   "status": "proved",
   "theorems": [
    "SALib.C22_distinct"
   ],
   "note": ""
  },
  {
   "property": "C23",
   "status": "proved",
   "theorems": [
    "SALib.C23_table",
    "SALib.C23_primitive",
    "SALib.C23_all_dimensions"
   ],
   "note": "all 21200 rows: shape, oddness, size, distinct and primitive polynomials; the check is evaluated in the kernel and proved sound"
  },
  {
   "property": "C24",
   "status": "proved",
   "theorems": [
    "SALib.C24_warns_iff",
    "SALib.C24_skip",
    "SALib.C24_stratified"
   ],
   "note": ""
  },
  {
   "property": "C25",
   "status": "proved",
   "theorems": [
    "SALib.C25_unit_strata",
    "SALib.C25_scaled_strata"
   ],
   "note": ""
  },
  {
   "property": "C26",
   "status": "proved",
   "theorems": [
    "SALib.C26_groups_move_together"
   ],
   "note": ""
  },
  {
   "property": "C27",
   "status": "proved",
   "theorems": [
    "SALib.C27_trajectories"
   ],
   "note": ""
  },
  {
   "property": "C28",
   "status": "proved",
   "theorems": [
    "SALib.C28_range_and_grid",
    "SALib.C28_scaled_in_bounds"
   ],
   "note": ""
  },
  {
   "property": "C29",
   "status": "proved",
   "theorems": [
    "SALib.C29_linear_exact"
   ],
   "note": "sigma is nan for a single trajectory, so the sigma part needs two"
  },
  {
   "property": "C30",
   "status": "proved",
   "theorems": [
    "SALib.C30_mu_star_dominates"
   ],
   "note": "whenever mu / sigma are numbers; sqrt >= 0 is a hypothesis"
  },
  {
   "property": "C31",
   "status": "proved",
   "theorems": [
    "SALib.C31_ignored_factor"
   ],
   "note": ""
  },
  {
   "property": "C32",
   "status": "proved",
   "theorems": [
    "SALib.C32_order",
    "SALib.C32_scale",
    "SALib.C32_shift_fails"
   ],
   "note": "morris_changes_once shows that Morris samples satisfy the proviso; C32_shift_fails shows that it is needed"
  },
  {
   "property": "C33",
   "status": "proved",
   "theorems": [
    "SALib.C33_whole_trajectories"
   ],
   "note": ""
  },
  {
   "property": "C34",
   "status": "proved",
   "theorems": [
    "SALib.C34_brute_force_optimal"
   ],
   "note": ""
  },
  {
   "property": "C35",
   "status": "partial",
   "theorems": [
    "SALib.C35_local_distinct_partial",
    "SALib.C35_duplicates"
   ],
   "note": "k indices below N always; distinct when no two trajectories are at distance zero. With equal trajectories an index can be returned twice, and the failing case is exhibited."
  },
  {
   "property": "C36",
   "status": "proved",
   "theorems": [
    "SALib.C36_distance",
    "SALib.C36_matrix"
   ],
   "note": "sqrt is a parameter"
  },
  {
   "property": "C37",
   "status": "partial",
   "theorems": [
    "SALib.C37_accept_iff_partial",
    "SALib.C37_corners"
   ],
   "note": "Accepted exactly for 2 <= k < N in the integer case; k = 0 switches the optimisation off, and non-integer k with brute force ends in AssertionError."
  },
  {
   "property": "C38",
   "status": "proved",
   "theorems": [
    "SALib.C38_reject",
    "SALib.C38_unit_cube",
    "SALib.C38_in_bounds"
   ],
   "note": ""
  },
  {
   "property": "C39",
   "status": "proved",
   "theorems": [
    "SALib.C39_no_alias",
    "SALib.C39_blocks",
    "SALib.C39_spread"
   ],
   "note": "M is a natural number in the model"
  },
  {
   "property": "C40",
   "status": "proved",
   "theorems": [
    "SALib.C40_ordered"
   ],
   "note": "exact real arithmetic; also: nan exactly when the spectral variance is zero"
  },
  {
   "property": "C41",
   "status": "proved",
   "theorems": [
    "SALib.C41_alignment",
    "SALib.C41_reject"
   ],
   "note": ""
  },
  {
   "property": "C42",
   "status": "proved",
   "theorems": [
    "SALib.C42_reorder"
   ],
   "note": "np.argsort is any sorting permutation (ties in any order)"
  },
  {
   "property": "C43",
   "status": "proved",
   "theorems": [
    "SALib.C43_raw_range",
    "SALib.C43_raw_value",
    "SALib.C43_correction",
    "SALib.C43_analysis",
    "SALib.C43_breakdown",
    "SALib.C43_bootstrap_crash",
    "SALib.C43_confidence"
   ],
   "note": "SciPy's periodogram is transcribed. Also shown: for N < 2M the correction reverses the ranking, for N = 2M it divides by zero, and for N = 4M or 4M+1 the bootstrap always divides by zero."
  },
  {
   "property": "C44",
   "status": "proved",
   "theorems": [
    "SALib.C44_design",
    "SALib.C44_sample",
    "SALib.C44_dists_fail"
   ],
   "note": "scipy.linalg.hadamard is transcribed (Sylvester). Also shown: with 'dists' and a number of parameters that is not a power of two sampling always fails."
  },
  {
   "property": "C45",
   "status": "proved",
   "theorems": [
    "SALib.C45_linear",
    "SALib.C45_reject"
   ],
   "note": "sampler, model and analyser composed"
  },
  {
   "property": "C46",
   "status": "proved",
   "theorems": [
    "SALib.C46_foldover"
   ],
   "note": ""
  },
  {
   "property": "C47",
   "status": "proved",
   "theorems": [
    "SALib.C47_extension",
    "SALib.C47_too_many"
   ],
   "note": ""
  },
  {
   "property": "C48",
   "status": "proved",
   "theorems": [
    "SALib.C48_blocks",
    "SALib.C48_in_bounds"
   ],
   "note": "clips to the first two numbers of the bounds row also when they are distribution parameters"
  },
  {
   "property": "C49",
   "status": "proved",
   "theorems": [
    "SALib.C49_linear",
    "SALib.C49_zero_step"
   ],
   "note": "sampler, model and analyser composed; the base sequence is any sequence"
  },
  {
   "property": "C50",
   "status": "proved",
   "theorems": [
    "SALib.C50_classes",
    "SALib.C50_all_samples",
    "SALib.C50_initial"
   ],
   "note": "edges in ascending order; checkBinInfo_edges shows that analyze always passes such edges (for a positive bin count)"
  },
  {
   "property": "C51",
   "status": "proved",
   "theorems": [
    "SALib.C51_range",
    "SALib.C51_analyze"
   ],
   "note": "also: the index is the share of squared deviation outside the classes; the class count formula of analyze always satisfies 1 <= M <= rows"
  },
  {
   "property": "C52",
   "status": "proved",
   "theorems": [
    "SALib.C52_raw",
    "SALib.C52_balanced",
    "SALib.C52_balanced_ok",
    "SALib.C52_balanced_size",
    "SALib.C52_step",
    "SALib.C52_step_short"
   ],
   "note": "C52_step_short: with equal positive values (on/off input) an empty class arises and only about 3/4 of the rows are drawn"
  },
  {
   "property": "C53",
   "status": "proved",
   "theorems": [
    "SALib.C53_params",
    "SALib.C53_ordered"
   ],
   "note": "per parameter (with the exact condition for nan) and for the reported table with and without groups"
  },
  {
   "property": "C54",
   "status": "partial",
   "theorems": [
    "SALib.C54_partial"
   ],
   "note": "the stated property is false in the code: the slices are half-open, so samples at the column maximum are never used; proved: every other sample is used exactly once"
  },
  {
   "property": "C55",
   "status": "proved",
   "theorems": [
    "SALib.C55_once",
    "SALib.C55_sides",
    "SALib.C55_entry"
   ],
   "note": "each sample in exactly one bin for every target array; each bin is compared with all other samples; exact condition for missing entries"
  },
  {
   "property": "C56",
   "status": "partial",
   "theorems": [
    "SALib.C56_hdmr",
    "SALib.C56_total_value",
    "SALib.C56_enhanced_order2",
    "SALib.C56_enhanced_fail"
   ],
   "note": "proved for hdmr, all orders, and for enhanced_hdmr at order 2; the other orders of enhanced_hdmr never finish (proved)"
  },
  {
   "property": "C57",
   "status": "partial",
   "theorems": [
    "SALib.C57_hdmr_general",
    "SALib.C57_hdmr_gap",
    "SALib.C57_enhanced"
   ],
   "note": "false for hdmr: Sa uses divisor R and S, Sb use R-1; the exact gap Sa/(R-1) is proved; proved for enhanced_hdmr"
  },
  {
   "property": "C58",
   "status": "partial",
   "theorems": [
    "SALib.C58_hdmr_partial",
    "SALib.C58_hdmr_fail",
    "SALib.C58_enhanced"
   ],
   "note": "false for hdmr at the first second-order and the first third-order term; proved for every other term, and for enhanced_hdmr: selected iff the F statistic exceeds the critical value"
  },
  {
   "property": "C59",
   "status": "partial",
   "theorems": [
    "SALib.C59_harmless_partial",
    "SALib.C59_result",
    "SALib.C59_ff_fail",
    "SALib.C59_ff_once",
    "SALib.C59_enhanced_fail",
    "SALib.C59_enhanced_alias_fail",
    "SALib.C59_hdmr_spec_fail"
   ],
   "note": "false for ff.analyze when the number of parameters is not a power of two, for enhanced_hdmr and for hdmr with a ProblemSpec; proved for all sequences of the other analyses"
  },
  {
   "property": "C60",
   "status": "partial",
   "theorems": [
    "SALib.C60_rows_partial",
    "SALib.C60_sample_clears",
    "SALib.C60_evaluate_fail"
   ],
   "note": "false for a model given to evaluate that returns another number of rows; proved for all histories with row-preserving models"
  },
  {
   "property": "C61",
   "status": "partial",
   "theorems": [
    "SALib.C61_current_partial",
    "SALib.C61_set_samples_fail",
    "SALib.C61_evaluate_fail"
   ],
   "note": "false after set_samples, set_results or evaluate on an analysed object; proved for all histories without such calls"
  },
  {
   "property": "C62",
   "status": "proved",
   "theorems": [
    "SALib.C62_parallel",
    "SALib.C62_ptqdm_fail",
    "SALib.C62_parts"
   ],
   "note": "with the standard process pool; with p_tqdm installed the call always raises TypeError (proved)"
  },
  {
   "property": "C63",
   "status": "proved",
   "theorems": [
    "SALib.C63_outputs",
    "SALib.C63_sticky"
   ],
   "note": ""
  },
  {
   "property": "C64",
   "status": "partial",
   "theorems": [
    "SALib.C64_reproducible_partial",
    "SALib.C64_value",
    "SALib.C64_zero_fail",
    "SALib.C64_hdmr_fail"
   ],
   "note": "false for seed 0 in all analysers but morris and rbd_fast, and for hdmr with any seed; proved for all other cases"
  },
  {
   "property": "C65",
   "status": "proved",
   "theorems": [
    "SALib.C65_true_indices",
    "SALib.C65_ranges",
    "SALib.C65_evaluate"
   ],
   "note": "real arithmetic; variance ratios with respect to Lebesgue measure on the unit cube"
  },
  {
   "property": "C66",
   "status": "proved",
   "theorems": [
    "SALib.C66_cardinal",
    "SALib.C66_nonneg",
    "SALib.C66_partition"
   ],
   "note": ""
  },
  {
   "property": "C67",
   "status": "proved",
   "theorems": [
    "SALib.C67_pairs",
    "SALib.C67_single_factor_fails"
   ],
   "note": "a single factor raises IndexError"
  },
  {
   "property": "C68",
   "status": "proved",
   "theorems": [
    "SALib.C68_affine"
   ],
   "note": "equality of the whole call, including failures and confidence values"
  },
  {
   "property": "C69",
   "status": "proved",
   "theorems": [
    "SALib.C69_variance",
    "SALib.C69_nan_iff_constant",
    "SALib.C69_even_alternating"
   ],
   "note": "for even block lengths the alternating component is left out, and a non-constant nan case is exhibited"
  },
  {
   "property": "C70",
   "status": "proved",
   "theorems": [
    "SALib.C70_affine"
   ],
   "note": ""
  },
  {
   "property": "C71",
   "status": "proved",
   "theorems": [
    "SALib.C71_interactions"
   ],
   "note": ""
  },
  {
   "property": "C72",
   "status": "proved",
   "theorems": [
    "SALib.C72_nonneg",
    "SALib.C72_affine",
    "SALib.C72_ignored",
    "SALib.C72_reject"
   ],
   "note": "C72_affine also shows that the reported dgsm_conf has the units of vi, not of dgsm"
  },
  {
   "property": "C73",
   "status": "proved",
   "theorems": [
    "SALib.C73_inputs",
    "SALib.C73_output",
    "SALib.C73_delta"
   ],
   "note": ""
  },
  {
   "property": "C74",
   "status": "proved",
   "theorems": [
    "SALib.C74_nonneg",
    "SALib.C74_le_one",
    "SALib.C74_bias"
   ],
   "note": ""
  },
  {
   "property": "C75",
   "status": "proved",
   "theorems": [
    "SALib.C75_output",
    "SALib.C75_inputs",
    "SALib.C75_monotone",
    "SALib.C75_order",
    "SALib.C75_rows"
   ],
   "note": ""
  },
  {
   "property": "C76",
   "status": "partial",
   "theorems": [
    "SALib.C76_pawn_params",
    "SALib.C76_pawn_groups",
    "SALib.C76_rsa_params",
    "SALib.C76_rsa_groups_fail",
    "SALib.C76_single_group_fail"
   ],
   "note": "proved without groups and for PAWN with groups; RSA with groups always raises an error, and a single group gives mismatched labels (both proved)"
  },
  {
   "property": "C77",
   "status": "proved",
   "theorems": [
    "SALib.C77_hdmr_train"
   ],
   "note": "single fit (K = 1), every order"
  },
  {
   "property": "C78",
   "status": "partial",
   "theorems": [
    "SALib.C78_point_partial",
    "SALib.C78_same_extremes_partial",
    "SALib.C78_average_partial",
    "SALib.C78_hdmr_fail"
   ],
   "note": "false in general: the inputs are scaled by the extremes of the batch given to emulate; proved: exact value at every row, and independence of the other rows when the extremes agree"
  },
  {
   "property": "C79",
   "status": "proved",
   "theorems": [
    "SALib.C79_hdmr_sum",
    "SALib.C79_hdmr_exact",
    "SALib.C79_enhanced_sum"
   ],
   "note": ""
  },
  {
   "property": "C80",
   "status": "partial",
   "theorems": [
    "SALib.C80_layout_partial",
    "SALib.C80_layout_fail"
   ],
   "note": "false for order 3 with the extended base and four or more parameters: the copied second-order columns belong to the wrong pairs; proved in every other case"
  },
  {
   "property": "C81",
   "status": "proved",
   "theorems": [
    "SALib.C81_components",
    "SALib.C81_emulate",
    "SALib.C81_width"
   ],
   "note": "the emulator does not add the mean back, see DESIGN.md"
  },
  {
   "property": "C82",
   "status": "proved",
   "theorems": [
    "SALib.C82_orthonormal",
    "SALib.C82_defined",
    "SALib.C82_columns"
   ],
   "note": "exact arithmetic; det and sqrt as mathematical functions"
  },
  {
   "property": "C83",
   "status": "proved",
   "theorems": [
    "SALib.C83_construct"
   ],
   "note": ""
  },
  {
   "property": "C84",
   "status": "partial",
   "theorems": [
    "SALib.C84_single_partial",
    "SALib.C84_single_fail"
   ],
   "note": "false for a single group (the code tests the length of the string 'groups') and for analyze_parallel"
  },
  {
   "property": "C85",
   "status": "proved",
   "theorems": [
    "SALib.C85_parallel",
    "SALib.C85_keys"
   ],
   "note": ""
  },
  {
   "property": "C86",
   "status": "proved",
   "theorems": [
    "SALib.C86_samples"
   ],
   "note": "generators as functions of their seed"
  },
  {
   "property": "C87",
   "status": "proved",
   "theorems": [
    "SALib.C87_accept",
    "SALib.C87_shares",
    "SALib.C87_wd",
    "SALib.C87_units",
    "SALib.C87_reflect",
    "SALib.C87_order",
    "SALib.C87_groups"
   ],
   "note": "scipy's qmc.scale and qmc.discrepancy transcribed; positivity for the default method over the reals"
  },
  {
   "property": "C88",
   "status": "partial",
   "theorems": [
    "SALib.C88_morris",
    "SALib.C88_dgsm",
    "SALib.C88_sobol",
    "SALib.C88_ff",
    "SALib.C88_fast",
    "SALib.C88_rbd",
    "SALib.C88_disc_partial",
    "SALib.C88_disc_fail"
   ],
   "note": "false for the discrepancy analysis when two parameters share a group; proved for the other analyses"
  },
  {
   "property": "C89",
   "status": "proved",
   "theorems": [
    "SALib.C89_formula",
    "SALib.C89_first_mean",
    "SALib.C89_first_bias",
    "SALib.C89_total_mean",
    "SALib.C89_second_mean",
    "SALib.C89_denominator_mean"
   ],
   "note": "random base rows; S1 numerator has a bias of at most Var/N, given exactly; ST and S2 numerators are unbiased"
  },
  {
   "property": "C90",
   "status": "proved",
   "theorems": [
    "SALib.C90_consistent",
    "SALib.C90_g_function"
   ],
   "note": "random base rows (the library's own sampler takes quasi-random ones)"
  },
  {
   "property": "C91",
   "status": "proved",
   "theorems": [
    "SALib.C91_evaluate",
    "SALib.C91_effects",
    "SALib.C91_converges",
    "SALib.C91_documented"
   ],
   "note": "random base rows"
  },
  {
   "property": "C92",
   "status": "proved",
   "theorems": [
    "SALib.C92_effects",
    "SALib.C92_model1",
    "SALib.C92_model2"
   ],
   "note": "random base rows"
  },
  {
   "property": "C93",
   "status": "partial",
   "theorems": [
    "SALib.C93_lake_partial",
    "SALib.C93_reliability_fails",
    "SALib.C93_states_nonneg"
   ],
   "note": "reliability and inertia are not fractions of the simulated steps: five steps of five lakes are simulated whatever nvars is"
  },
  {
   "property": "C94",
   "status": "proved",
   "theorems": [
    "SALib.C94_sweep",
    "SALib.C94_fixed_point",
    "SALib.C94_first_order",
    "SALib.C94_enhanced",
    "SALib.C94_enhanced_fixed_point",
    "SALib.C94_enhanced_single",
    "SALib.C94_two_orders",
    "SALib.C94_enhanced_singular",
    "SALib.C94_stops",
    "SALib.C94_higher_fails"
   ],
   "note": "lin_solve and scipy.linalg.solve are parameters assumed to solve their systems"
  },
  {
   "property": "C95",
   "status": "partial",
   "theorems": [
    "SALib.C95_order_two_partial",
    "SALib.C95_dmorph_partial",
    "SALib.C95_few_samples",
    "SALib.C95_few_samples_fail"
   ],
   "note": "holds when the sample has at least as many points as the extended base has columns; with fewer the cost matrix has no influence.  pinv, matrix_rank and svd are parameters with their defining properties, which are shown to exist"
  },
  {
   "property": "C96",
   "status": "partial",
   "theorems": [
    "SALib.C96_given_partial",
    "SALib.C96_default_partial",
    "SALib.C96_data",
    "SALib.C96_saved",
    "SALib.C96_accepts",
    "SALib.C96_seed_fail",
    "SALib.C96_bool_fail",
    "SALib.C96_none_fail"
   ],
   "note": "six options do not reach the call and seven change the default; all others do.  argparse is modelled on lines split into option and value"
  },
  {
   "property": "C97",
   "status": "proved",
   "theorems": [
    "SALib.C97_unbiased",
    "SALib.C97_consistent",
    "SALib.fairDraws_exist"
   ],
   "note": "even number of levels, uniform inputs, no trajectory optimisation; the draws of NumPy's generator are taken to be fair and independent; mu_star_conf not covered"
  },
  {
   "property": "C98",
   "status": "partial",
   "theorems": [
    "SALib.C98_partial",
    "SALib.C98_derivative",
    "SALib.C98_affine",
    "SALib.C98_estimates",
    "SALib.C98_step_fail",
    "SALib.uniformPoints_exist"
   ],
   "note": "false for the step that is used: on a range that is narrow compared to its distance from zero all steps are cut off at the bound (C98_step_fail); proved for steps that tend to zero and for models affine in the input; the base points are taken to be independent and uniform, the code uses a Sobol sequence"
  },
  {
   "property": "C99",
   "status": "proved",
   "theorems": [
    "SALib.C99_net",
    "SALib.C99_step_mean",
    "SALib.C99_first_two",
    "SALib.C99_orthants",
    "SALib.C99_saltelli"
   ],
   "note": ""
  }
 ]
}