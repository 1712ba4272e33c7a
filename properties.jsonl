{"id": "C01", "title": "Scaling puts unit samples inside the declared bounds", "statement": "If every entry of a sample lies in [0,1] and every bounds row is legal, then after scaling (no 'dists') the sample has the same shape, entry (r,c) lies in [lower_c, upper_c], 0 goes to lower_c, 1 goes to upper_c, and the map in each column is strictly increasing.", "quantifier": "every number of rows and columns, every legal bounds table, every unit-cube sample", "why_tests_cant": "The claim is about every real-valued sample and every bounds table; a test can only try finitely many numbers, and a wrong formula that agrees on 0, 1/2 and 1 would pass.", "anchors": ["src/SALib/util/__init__.py:_scale_samples", "src/SALib/util/__init__.py:scale_samples"]}
{"id": "C02", "title": "Scaling and unscaling undo each other", "statement": "For every legal bounds table, unscaling a scaled sample gives back the original sample, and scaling an unscaled sample gives back the original sample.", "quantifier": "every sample matrix (not only unit-cube ones) and every legal bounds table", "why_tests_cant": "The claim is about every real-valued sample and every bounds table; a test can only try finitely many numbers, and a wrong formula that agrees on 0, 1/2 and 1 would pass.", "anchors": ["src/SALib/util/__init__.py:_scale_samples", "src/SALib/util/__init__.py:_unscale_samples"]}
{"id": "C03", "title": "Illegal bounds are always rejected, legal ones never are", "statement": "Uniform scaling and unscaling raise ValueError exactly when some parameter has lower >= upper, and never otherwise.", "quantifier": "every bounds table of every length", "why_tests_cant": "The guard must hold for a bad row at any position among any number of good rows.", "anchors": ["src/SALib/util/util_funcs.py:_check_bounds", "src/SALib/util/__init__.py:_scale_samples", "src/SALib/util/__init__.py:_unscale_samples"]}
{"id": "C04", "title": "Declaring every distribution 'unif' is the same as declaring none", "statement": "With 'dists' all 'unif' and legal two-value bounds, scale_samples returns exactly the matrix it returns when 'dists' is absent; the two also reject the same bounds tables.", "quantifier": "every sample, every bounds table", "why_tests_cant": "Two different code paths must agree on all inputs, including all erroneous ones.", "anchors": ["src/SALib/util/__init__.py:scale_samples", "src/SALib/util/__init__.py:_nonuniform_scale_samples"]}
{"id": "C05", "title": "Non-uniform scaling works column by column and fails exactly on documented errors", "statement": "When scale_samples with 'dists' succeeds, column c of the result depends only on column c of the sample, bounds[c] and dists[c]; it raises ValueError exactly when the number of distributions differs from the number of columns or some column's parameters are not acceptable for its distribution; and 'sample_scaled' is marked only on success.", "quantifier": "every mixture of distributions in every order, every parameter tuple", "why_tests_cant": "The number of mixtures of distributions and parameter tuples is unbounded, and cross-column leaks only show for particular combinations.", "anchors": ["src/SALib/util/__init__.py:scale_samples", "src/SALib/util/__init__.py:_nonuniform_scale_samples"]}
{"id": "C06", "title": "Non-uniform scaling is the inverse CDF of the named distribution", "statement": "For 'triang', 'logunif', 'weibull', 'norm', 'lognorm' and 'truncnorm' columns, a unit value u strictly between 0 and 1 is mapped to the point x of the support whose cumulative probability is exactly u (for 'lognorm' the point whose logarithm has that normal probability; for 'truncnorm' the point between the limits that splits the normal probability of the interval in that ratio); hence larger u never gives smaller x and x stays in the support.", "quantifier": "every u in (0,1), every accepted parameter tuple", "why_tests_cant": "Equality of a quantile function with a distribution is a statement over a continuum.", "anchors": ["src/SALib/util/__init__.py:_nonuniform_scale_samples"]}
{"id": "C07", "title": "Every parameter is in exactly one group, groups in order of first mention", "statement": "The group matrix used by the samplers has one row per parameter with exactly one 1, in the column of that parameter's group; columns are the distinct group names in order of first mention; no column is empty; the names reported alongside are those distinct names.", "quantifier": "every list of group labels (any length, any repetition pattern)", "why_tests_cant": "There are unboundedly many repetition patterns; ordering bugs only appear for interleaved labels.", "anchors": ["src/SALib/util/__init__.py:compute_groups_matrix", "src/SALib/util/__init__.py:extract_group_names", "src/SALib/util/__init__.py:_define_problem_with_groups"]}
{"id": "C08", "title": "The Sobol sampler and the Sobol analyser agree on how many groups there are", "statement": "For every problem, the number of groups the Saltelli/Sobol sampler uses to lay out rows equals the number of groups the Sobol analyser uses to read the outputs.", "quantifier": "every problem with or without groups", "why_tests_cant": "Must hold for every labelling; a test picks a few, and the failing labelling (one single group) silently gives wrong numbers for some sizes only.", "anchors": ["src/SALib/util/util_funcs.py:_check_groups", "src/SALib/util/__init__.py:extract_group_names", "src/SALib/sample/saltelli.py:sample", "src/SALib/sample/sobol.py:sample", "src/SALib/analyze/sobol.py:analyze"]}
{"id": "C09", "title": "Parameter files are read row by row without loss", "statement": "read_param_file returns names and bounds in file order for exactly the non-comment rows; num_vars is their count; a missing group (or NA) becomes the parameter's own name and a missing distribution becomes 'unif'; 'groups' is None exactly when every parameter is its own group; a single shared group is rejected; 'dists' is None exactly when all are 'unif'.", "quantifier": "every parameter file (any number and order of comment and data rows)", "why_tests_cant": "Files are unbounded and mix comments, groups and distributions arbitrarily.", "anchors": ["src/SALib/util/util_funcs.py:read_param_file"]}
{"id": "C10", "title": "The Saltelli/Sobol sample has the documented size", "statement": "A sample for N base points has N*(2g+2) rows with second order indices and N*(g+2) without (g = number of groups, or of parameters when no effective groups are given), every row has one value per parameter, and building it never reads or writes out of range.", "quantifier": "every N, every number of parameters, every grouping, with and without second order", "why_tests_cant": "Row count and in-range writes must hold for all N and g; tests fix both.", "anchors": ["src/SALib/sample/saltelli.py:sample", "src/SALib/sample/sobol.py:sample"]}
{"id": "C11", "title": "The Saltelli/Sobol sample is the documented cross-sampling scheme", "statement": "Block i of the sample is, in order: point A_i; for every group k, A_i with group k's parameters replaced by B_i's; (second order) for every group k, B_i with group k's parameters replaced by A_i's; point B_i - where A_i and B_i are the first and second halves of row i of the quasi-random base sequence.", "quantifier": "every base sequence, every N, D, grouping and order option", "why_tests_cant": "A layout mistake shows only for particular group structures and indexes.", "anchors": ["src/SALib/sample/saltelli.py:sample", "src/SALib/sample/sobol.py:sample"]}
{"id": "C12", "title": "Sobol analysis reads the outputs of the right rows", "statement": "If the outputs passed to the Sobol analyser are any row-wise model applied to the sampler's rows, the values it uses as A, B, AB_k and BA_k are exactly the model at the corresponding points of the cross-sampling scheme.", "quantifier": "every model, base sequence, N, order option, and every grouping but that of several parameters under one shared label (where sampler and analyser disagree, C08)", "why_tests_cant": "It is an alignment statement between two modules for all sizes and every model.", "anchors": ["src/SALib/analyze/sobol.py:separate_output_values", "src/SALib/sample/saltelli.py:sample"]}
{"id": "C13", "title": "A factor the model ignores has zero Sobol indices", "statement": "If the model does not depend on the parameters of group k, the reported S1 and ST of k are exactly 0, and every S2 involving k is exactly 0 (when output variance is non-zero).", "quantifier": "every model that ignores k, every N, every base sequence, every grouping", "why_tests_cant": "Ranges over all functions ignoring a factor.", "anchors": ["src/SALib/analyze/sobol.py:first_order", "src/SALib/analyze/sobol.py:total_order", "src/SALib/analyze/sobol.py:second_order", "src/SALib/analyze/sobol.py:analyze"]}
{"id": "C14", "title": "Total-order indices and Sobol confidence widths are never negative", "statement": "Every finite ST value is >= 0, and every confidence value is >= 0 whenever conf_level is in (0,1); the kept resamples are the estimates on the rows of each resample, and a confidence value is the normal quantile times their standard deviation.", "quantifier": "every output vector, every resample draw", "why_tests_cant": "Sign facts over all real vectors.", "anchors": ["src/SALib/analyze/sobol.py:total_order", "src/SALib/analyze/sobol.py:analyze"]}
{"id": "C15", "title": "Sobol indices do not depend on the units of the output", "statement": "Replacing every output y by a*y+b with a != 0 leaves all S1, ST and S2 values unchanged.", "quantifier": "every output vector and all a != 0, b", "why_tests_cant": "Invariance over two real parameters and all vectors.", "anchors": ["src/SALib/analyze/sobol.py:analyze", "src/SALib/analyze/sobol.py:first_order", "src/SALib/analyze/sobol.py:total_order", "src/SALib/analyze/sobol.py:second_order"]}
{"id": "C16", "title": "A constant model gives zero Sobol indices", "statement": "When all outputs are equal, the Sobol analyser reports 0 for every index, as its constant-output warning says.", "quantifier": "every constant output vector of every legal length", "why_tests_cant": "All lengths and values.", "anchors": ["src/SALib/analyze/sobol.py:analyze", "src/SALib/analyze/sobol.py:first_order"]}
{"id": "C17", "title": "Parallel Sobol analysis gives the serial answer", "statement": "With the same resample draws, sobol.analyze(parallel=True) returns the same S1, ST, S2 and confidence values as the serial run, for every processor count, and regardless of the order in which worker results are merged.", "quantifier": "every output vector, every number of processors >= 1, every partition of the tasks, every completion order", "why_tests_cant": "Schedules and processor counts cannot be enumerated by tests.", "anchors": ["src/SALib/analyze/sobol.py:create_task_list", "src/SALib/analyze/sobol.py:sobol_parallel", "src/SALib/analyze/sobol.py:Si_list_to_dict", "src/SALib/analyze/sobol.py:analyze"]}
{"id": "C18", "title": "The Sobol analyser rejects output vectors of impossible length", "statement": "sobol.analyze raises RuntimeError exactly when the number of outputs is not a multiple of 2g+2 (second order) or g+2, or conf_level is outside (0,1); otherwise N is the exact quotient and every output is used exactly once.", "quantifier": "every output length, every g, both order options", "why_tests_cant": "All lengths and group counts.", "anchors": ["src/SALib/analyze/sobol.py:analyze", "src/SALib/analyze/sobol.py:separate_output_values"]}
{"id": "C19", "title": "Sobol sequence points are dyadic points of [0,1) and generation never overruns its tables", "statement": "For every N with 1 <= N <= 2^31 and every allowed dimension, the sequence has N rows and D columns, row 0 is all zeros, every entry is a multiple of 2^-31 in [0,1), and no direction-number table lookup is out of range.", "quantifier": "every N and D allowed by the generator, every direction table of the documented form", "why_tests_cant": "N ranges up to 2^31; the last rows are unreachable for tests.", "anchors": ["src/SALib/sample/sobol_sequence.py:sample", "src/SALib/sample/sobol_sequence.py:index_of_least_significant_zero_bit"]}
{"id": "C20", "title": "Every aligned power-of-two block of the Sobol sequence is perfectly stratified", "statement": "In every dimension and for every k <= 31, each block of 2^k consecutive points starting at a multiple of 2^k has exactly one point in each interval [i/2^k,(i+1)/2^k).", "quantifier": "every dimension, k, and aligned block", "why_tests_cant": "Holds for up to 2^31 points and 21201 dimensions: out of reach of enumeration.", "anchors": ["src/SALib/sample/sobol_sequence.py:sample"]}
{"id": "C21", "title": "Asking for more Sobol points only appends points", "statement": "The first N rows of the sequence generated for N' >= N points are exactly the sequence generated for N points (even if the internal bit count is over-estimated).", "quantifier": "every pair N <= N' <= 2^31 and dimension", "why_tests_cant": "All pairs of lengths.", "anchors": ["src/SALib/sample/sobol_sequence.py:sample"]}
{"id": "C22", "title": "Sobol points never repeat", "statement": "Any two different rows among the at most 2^31 rows of the sequence differ in every single coordinate.", "quantifier": "every N, dimension and pair of rows", "why_tests_cant": "Quadratically many pairs over billions of points.", "anchors": ["src/SALib/sample/sobol_sequence.py:sample"]}
{"id": "C23", "title": "The direction-number table is well formed", "statement": "Every row of the shipped direction-number table holds a primitive-polynomial code and as many initial numbers as its degree, each initial number m_j is odd and smaller than 2^j; therefore the properties above hold for every dimension up to the table's limit.", "quantifier": "all 21200 rows of the table", "why_tests_cant": "Tests of the sampler exercise only a handful of dimensions; one mistyped number in row 17000 would never be seen.", "anchors": ["src/SALib/sample/directions.py:directions", "src/SALib/sample/sobol_sequence.py:sample"]}
{"id": "C24", "title": "Saltelli skip and power-of-two checks", "statement": "The sampler warns about sample size exactly when N is not a power of two (N=1 is also warned about); the default number of skipped points is the larger of 16 and the least power of two >= N, so the A points of a power-of-two sample are perfectly stratified; an explicit skip that is negative is rejected.", "quantifier": "every N and skip value", "why_tests_cant": "All integers N.", "anchors": ["src/SALib/sample/saltelli.py:sample"]}
{"id": "C25", "title": "Latin hypercube: exactly one point per stratum in every column", "statement": "For every parameter, after undoing the scaling to bounds, the N values have exactly one in each interval [i/N,(i+1)/N).", "quantifier": "every N, every number of parameters, every random draw and shuffle", "why_tests_cant": "Ranges over all outcomes of the random generator.", "anchors": ["src/SALib/sample/latin.py:sample"]}
{"id": "C26", "title": "Latin hypercube: grouped parameters move together", "statement": "Parameters in the same group have the same unit-cube value in every row; with no groups the columns come from independent draws (one shuffle per parameter).", "quantifier": "every grouping, N, random draw and shuffle", "why_tests_cant": "All group labellings and random outcomes.", "anchors": ["src/SALib/sample/latin.py:sample"]}
{"id": "C27", "title": "Morris trajectories change exactly one group per step, each group once", "statement": "Every trajectory has g+1 points; between consecutive points exactly the parameters of one group change, each by exactly +delta or -delta in unit scale, and over the trajectory every group changes exactly once.", "quantifier": "every number of parameters and groups, every random draw (direction, permutation, start)", "why_tests_cant": "All random outcomes and all groupings.", "anchors": ["src/SALib/sample/morris/morris.py:_generate_trajectory", "src/SALib/sample/morris/morris.py:_compute_b_star", "src/SALib/sample/morris/morris.py:_generate_p_star", "src/SALib/sample/morris/morris.py:_generate_x_star"]}
{"id": "C28", "title": "Morris points stay in range and on the level grid", "statement": "For num_levels p >= 2 all unit-scale coordinates of all trajectories lie in [0,1]; for even p they are multiples of 1/(p-1), i.e. on the p-level grid; after scaling they are inside the bounds.", "quantifier": "every p, number of parameters, grouping and random draw", "why_tests_cant": "All level counts and random outcomes.", "anchors": ["src/SALib/sample/morris/morris.py:_generate_x_star", "src/SALib/sample/morris/morris.py:_compute_b_star", "src/SALib/util/__init__.py:_compute_delta"]}
{"id": "C29", "title": "Morris recovers linear models exactly", "statement": "If the model is sum_j c_j x_j + c_0 and the sample comes from the Morris sampler (ungrouped), then every elementary effect of parameter j equals c_j*(upper_j-lower_j); so mu_j equals it, mu_star_j is its absolute value and sigma_j is 0.", "quantifier": "every linear model, bounds, p, number of trajectories, and random draw", "why_tests_cant": "Ranges over all coefficients and random outcomes.", "anchors": ["src/SALib/analyze/morris.py:_compute_elementary_effects", "src/SALib/analyze/morris.py:analyze", "src/SALib/sample/morris/morris.py:sample"]}
{"id": "C30", "title": "Morris: mu_star dominates |mu|, sigma is non-negative", "statement": "For every input and output set accepted by the analyser, mu_star >= |mu| and mu_star >= 0 for each parameter, and sigma >= 0; mu_star = 0 only if all elementary effects are 0.", "quantifier": "every sample and output vector", "why_tests_cant": "Inequalities over all real data.", "anchors": ["src/SALib/analyze/morris.py:_compute_mu_star", "src/SALib/analyze/morris.py:analyze"]}
{"id": "C31", "title": "Morris: a factor the model ignores has zero effects", "statement": "With samples from the Morris sampler, if the model ignores the parameters of group k then mu, mu_star of k are exactly 0 (and sigma is 0 when ungrouped).", "quantifier": "every model ignoring k, every random draw and grouping", "why_tests_cant": "All functions ignoring a factor.", "anchors": ["src/SALib/analyze/morris.py:_compute_elementary_effects", "src/SALib/analyze/morris.py:analyze"]}
{"id": "C32", "title": "Morris statistics do not depend on the order of trajectories, and scale with the output", "statement": "Reordering whole trajectories (inputs and outputs together) leaves mu, mu_star and sigma unchanged; replacing outputs y by a*y+b multiplies mu by a and mu_star and sigma by |a| (effects not scaled; for b nonzero the sample moves each parameter at most once per trajectory, as the Morris sampler does).", "quantifier": "every sample, every permutation of trajectories, all a, b", "why_tests_cant": "All permutations and reals.", "anchors": ["src/SALib/analyze/morris.py:analyze", "src/SALib/analyze/morris.py:_compute_elementary_effects"]}
{"id": "C33", "title": "Optimised Morris sampling returns k whole, distinct trajectories of the initial sample", "statement": "With optimal_trajectories = k accepted, the output is the concatenation of exactly k of the N initial trajectories, unmodified; brute force always yields k different ones.", "quantifier": "every initial sample, N, k, group count", "why_tests_cant": "All samples and choices.", "anchors": ["src/SALib/sample/morris/morris.py:_compute_optimised_trajectories", "src/SALib/sample/morris/strategy.py:SampleMorris", "src/SALib/sample/morris/brute.py:BruteForce"]}
{"id": "C34", "title": "Brute-force Morris optimisation is optimal", "statement": "The set of k trajectories returned by the brute-force strategy has total distance at least that of every other set of k trajectories, independently of the chunk size used to enumerate the sets.", "quantifier": "every distance matrix, N, k and chunk size", "why_tests_cant": "There are exponentially many sets; the default chunk size (one million) is never exceeded in tests.", "anchors": ["src/SALib/sample/morris/brute.py:BruteForce", "src/SALib/sample/morris/brute.py:find_most_distant", "src/SALib/sample/morris/brute.py:find_maximum", "src/SALib/sample/morris/brute.py:nth", "src/SALib/sample/morris/brute.py:grouper"]}
{"id": "C35", "title": "Local Morris optimisation returns k distinct trajectory indexes", "statement": "The local-search strategy always returns k indexes in 0..N-1, all different.", "quantifier": "every initial sample, N and k with 2 <= k < N", "why_tests_cant": "Fails only on ties (coinciding trajectories), which random tests rarely hit.", "anchors": ["src/SALib/sample/morris/local.py:LocalOptimisation", "src/SALib/sample/morris/local.py:find_local_maximum", "src/SALib/sample/morris/local.py:get_max_sum_ind", "src/SALib/sample/morris/local.py:add_indices", "src/SALib/sample/morris/local.py:sum_distances"]}
{"id": "C36", "title": "Morris trajectory distance is a symmetric non-negative dissimilarity", "statement": "The distance between two trajectories is symmetric, non-negative, zero for identical trajectories and the distance matrix used by both strategies agrees with it for every pair.", "quantifier": "every pair of trajectories of every size", "why_tests_cant": "All real matrices.", "anchors": ["src/SALib/sample/morris/strategy.py:SampleMorris.compute_distance", "src/SALib/sample/morris/strategy.py:SampleMorris.compute_distance_matrix"]}
{"id": "C37", "title": "Morris optimisation arguments are checked exactly", "statement": "optimal_trajectories is accepted exactly when it is an integer with 2 <= k < N (and k <= 10 for brute force); otherwise ValueError is raised and no sample is returned.", "quantifier": "all integers k and N", "why_tests_cant": "All integer pairs.", "anchors": ["src/SALib/sample/morris/morris.py:_compute_optimised_trajectories", "src/SALib/sample/morris/morris.py:sample", "src/SALib/sample/morris/strategy.py:SampleMorris.run_checks"]}
{"id": "C38", "title": "eFAST search curve stays in the unit cube and has the documented layout", "statement": "The FAST sample has N*D rows and D columns and all unit-scale values lie in [0,1]; N <= 4*M^2 is rejected.", "quantifier": "every N, D, M and random phase", "why_tests_cant": "Real phases and all sizes.", "anchors": ["src/SALib/sample/fast_sampler.py:sample"]}
{"id": "C39", "title": "eFAST frequencies cannot alias", "statement": "For every accepted N, M and D the driving frequency omega_0 satisfies 2*M*omega_0 <= N-1, every complementary frequency is at least 1 and its M-th harmonic is at most omega_0/2, so the first-order harmonics and the complementary band are disjoint and below the Nyquist limit; in block i parameter i has frequency omega_0 and all others have complementary frequencies. When at least D-1 frequencies are allowed the complementary ones are all different and run from 1 to the highest allowed one.", "quantifier": "every accepted N, M, D", "why_tests_cant": "All integer triples.", "anchors": ["src/SALib/sample/fast_sampler.py:sample", "src/SALib/analyze/fast.py:analyze", "src/SALib/analyze/fast.py:compute_orders"]}
{"id": "C40", "title": "eFAST indices are ordered: 0 <= S1 <= ST <= 1", "statement": "For every output vector with non-zero spectral variance, S1 and ST reported by FAST satisfy 0 <= S1 <= ST <= 1 for every parameter, and no spectrum lookup is out of range.", "quantifier": "every output vector, accepted N and M", "why_tests_cant": "All real vectors.", "anchors": ["src/SALib/analyze/fast.py:compute_orders", "src/SALib/analyze/fast.py:analyze"]}
{"id": "C41", "title": "eFAST analyser reads the block of the right parameter", "statement": "The analyser uses for parameter i exactly the model outputs at the rows in which the sampler drove parameter i at omega_0, and rejects output vectors whose length is not a multiple of D.", "quantifier": "every model, N, D", "why_tests_cant": "Alignment for all sizes.", "anchors": ["src/SALib/analyze/fast.py:analyze", "src/SALib/sample/fast_sampler.py:sample"]}
{"id": "C42", "title": "RBD-FAST reorders outputs without losing or repeating any", "statement": "For every parameter, the reordered output sequence is a permutation of the outputs; along it the parameter's values first rise (every other order statistic) and then fall.", "quantifier": "every sample column and output vector of the same length", "why_tests_cant": "All vectors incl. ties.", "anchors": ["src/SALib/analyze/rbd_fast.py:permute_outputs"]}
{"id": "C43", "title": "RBD-FAST first-order index is at most 1 and bias correction preserves ranking", "statement": "Before correction 0 <= S1 <= 1; the bias correction never increases S1, keeps 1 fixed, and is strictly increasing (for 2M < N), so the ranking of parameters is unchanged. S1_conf is norm.ppf(0.5 + conf_level/2) times the standard deviation (divisor resamples - 1) of the corrected indices of the resamples, each made of half as many rows drawn together with their outputs.", "quantifier": "every output vector, M and N with 2M < N", "why_tests_cant": "All real vectors.", "anchors": ["src/SALib/analyze/rbd_fast.py:compute_first_order", "src/SALib/analyze/rbd_fast.py:unskew_S1", "src/SALib/analyze/rbd_fast.py:bootstrap"]}
{"id": "C44", "title": "The fractional factorial design is balanced and orthogonal", "statement": "The contrast matrix for m = 2^x factors has 2m rows with entries +1/-1, all columns are mutually orthogonal and each sums to zero (fold-over); the sample has each parameter exactly at one of its two bounds, half of the runs at each.", "quantifier": "every number of factors up to the supported limit", "why_tests_cant": "All sizes 2^x.", "anchors": ["src/SALib/sample/ff.py:generate_contrast", "src/SALib/sample/ff.py:sample"]}
{"id": "C45", "title": "Fractional factorial main effects recover linear models, dummies get zero", "statement": "If the model is linear in the parameters, the main effect reported for parameter j is c_j*(upper_j-lower_j)/2 and the main effect of every dummy is exactly 0.", "quantifier": "every linear model and bounds, every number of parameters up to 512", "why_tests_cant": "All coefficients and sizes.", "anchors": ["src/SALib/analyze/ff.py:analyze", "src/SALib/sample/ff.py:sample"]}
{"id": "C46", "title": "Fold-over keeps two-factor interactions out of main effects", "statement": "Adding any constant and any combination of products of two (coded) factors to the model leaves all reported main effects unchanged.", "quantifier": "every model, every set of pair coefficients, every size", "why_tests_cant": "All models.", "anchors": ["src/SALib/analyze/ff.py:analyze", "src/SALib/sample/ff.py:generate_contrast"]}
{"id": "C47", "title": "Fractional factorial extension is minimal, idempotent and keeps the user's parameters first", "statement": "Between 1 and 512 parameters the design is extended to the least power of two >= their number, by appending dummies named dummy_0, dummy_1, ... with bounds [0,1]; the first parameters keep their names and bounds; extending twice changes nothing more; more than 512 parameters fail with an error.", "quantifier": "every number of parameters", "why_tests_cant": "All sizes.", "anchors": ["src/SALib/sample/ff.py:find_smallest", "src/SALib/sample/ff.py:extend_bounds", "src/SALib/sample/ff.py:sample"]}
{"id": "C48", "title": "Finite-difference sample: perturbed rows differ from the base point in one coordinate only and stay in bounds", "statement": "The sample has N*(D+1) rows; in block i the first row is the base point and row 1+j equals it except possibly in coordinate j, where it is base*(1+delta) clipped to parameter j's bounds.", "quantifier": "every N, D, delta, base sequence, bounds", "why_tests_cant": "All sizes and real values.", "anchors": ["src/SALib/sample/finite_diff.py:sample"]}
{"id": "C49", "title": "DGSM on the finite-difference sample is exact for linear models", "statement": "If the model is linear, then vi of parameter j is exactly c_j^2 whenever no finite-difference step is zero; a step is zero exactly when the base value is 0, delta is 0, or clipping undoes the step, and then the reported value is not finite.", "quantifier": "every linear model, base sequence and bounds", "why_tests_cant": "All coefficients and samples; zero steps occur only for special bounds.", "anchors": ["src/SALib/analyze/dgsm.py:analyze", "src/SALib/analyze/dgsm.py:calc_vi_stats", "src/SALib/sample/finite_diff.py:sample"]}
{"id": "C50", "title": "Delta method: every sample is in exactly one class", "statement": "After small classes are merged, every sample with value between the smallest and largest edge belongs to exactly one class, and every class except possibly the last has at least the minimum class size.", "quantifier": "every input column, class edges and minimum size", "why_tests_cant": "All vectors and edge lists.", "anchors": ["src/SALib/analyze/delta.py:obtain_bins_indices"]}
{"id": "C51", "title": "Delta method: first-order index lies between 0 and 1", "statement": "The first-order index computed from class means is between 0 and 1 for every non-constant output (between-class variance never exceeds total variance), and every class used is non-empty.", "quantifier": "every output vector, every ranking of the inputs, every class count not exceeding the sample size", "why_tests_cant": "All real vectors.", "anchors": ["src/SALib/analyze/delta.py:sobol_first"]}
{"id": "C52", "title": "Delta method: resampling takes the requested number of rows", "statement": "The subset drawn for the given-data bootstrap has exactly the requested number of rows when no class is empty, and every row index it contains is a valid one drawn from the class it stands for.", "quantifier": "every class partition, every requested size, every random draw", "why_tests_cant": "All partitions and random outcomes.", "anchors": ["src/SALib/analyze/delta.py:obtain_resampled_subset"]}
{"id": "C53", "title": "PAWN summary statistics are ordered and within [0,1]", "statement": "For every parameter, minimum <= mean <= maximum and minimum <= median <= maximum, all within [0,1].", "quantifier": "every input/output sample and slice count", "why_tests_cant": "All real data.", "anchors": ["src/SALib/analyze/pawn.py:analyze"]}
{"id": "C54", "title": "PAWN slices use every sample exactly once", "statement": "Every sample is used in exactly one conditioning slice of each parameter.", "quantifier": "every input column, every slice count", "why_tests_cant": "Boundary values decide; random tests seldom look at them.", "anchors": ["src/SALib/analyze/pawn.py:analyze"]}
{"id": "C55", "title": "RSA bins use every output exactly once", "statement": "Regional sensitivity analysis assigns every sample to exactly one behavioural bin of the target variable.", "quantifier": "every target column and bin count", "why_tests_cant": "Boundary values decide.", "anchors": ["src/SALib/analyze/rsa.py:rsa"]}
{"id": "C56", "title": "HDMR terms are all subsets up to the chosen order, in a fixed order matching their labels", "statement": "For d parameters and maximum order 1, 2 or 3, HDMR reports one row per non-empty subset of parameters of size at most the order, each subset once, in the order of the labels printed in 'Term'; the total index of parameter r sums exactly the rows whose subset contains r.", "quantifier": "every number of parameters and order", "why_tests_cant": "All d.", "anchors": ["src/SALib/analyze/hdmr.py:_init", "src/SALib/analyze/hdmr.py:_finalize", "src/SALib/analyze/enhanced_hdmr.py:_core_params", "src/SALib/analyze/enhanced_hdmr.py:_finalize"]}
{"id": "C57", "title": "HDMR variance decomposition adds up: S = Sa + Sb", "statement": "Whenever the fitted components add up exactly to the centred output, the total contribution S of each term equals its structural part Sa plus its correlative part Sb.", "quantifier": "every component-function matrix", "why_tests_cant": "All real matrices.", "anchors": ["src/SALib/analyze/hdmr.py:ancova", "src/SALib/analyze/enhanced_hdmr.py:_ancova"]}
{"id": "C58", "title": "HDMR F-test uses the right number of coefficients for each term", "statement": "In the significance test each term is tested with the number of coefficients of its own order.", "quantifier": "every d and maximum order, every term index", "why_tests_cant": "An off-by-one at the first second-order term only.", "anchors": ["src/SALib/analyze/hdmr.py:f_test", "src/SALib/analyze/enhanced_hdmr.py:_f_test"]}
{"id": "C59", "title": "Analysis does not modify the problem definition", "statement": "Running an analyser leaves the names, bounds and groups of the problem dictionary as they were, so the same problem can be analysed again.", "quantifier": "every problem, every sequence of analyses", "why_tests_cant": "Aliasing shows only on reuse.", "anchors": ["src/SALib/analyze/enhanced_hdmr.py:_finalize", "src/SALib/analyze/ff.py:analyze", "src/SALib/sample/ff.py:extend_bounds", "src/SALib/util/__init__.py:_define_problem_with_groups"]}
{"id": "C60", "title": "The problem interface never mixes results from different samples", "statement": "In any sequence of calls on a ProblemSpec, whenever samples and results are both present they have the same number of rows; generating a new sample removes earlier results and analysis.", "quantifier": "every finite sequence of operations (sample, set_samples, evaluate, set_results, analyze) from a fresh object, including failing ones", "why_tests_cant": "Histories are unbounded.", "anchors": ["src/SALib/util/problem.py:ProblemSpec"]}
{"id": "C61", "title": "A ProblemSpec analysis always belongs to the current results", "statement": "In any sequence of calls, if analysis is present then it was computed from the samples and results now held.", "quantifier": "every finite sequence of operations", "why_tests_cant": "Histories are unbounded; the failing order (analyse, then replace the samples or results) is unusual in tests.", "anchors": ["src/SALib/util/problem.py:ProblemSpec"]}
{"id": "C62", "title": "Parallel evaluation returns what sequential evaluation returns", "statement": "For a row-wise model, evaluate_parallel with any number of processors gives the same results array as evaluate, rows in the same order; every row is evaluated exactly once.", "quantifier": "every sample matrix, number of processors, row-wise model", "why_tests_cant": "All partitions.", "anchors": ["src/SALib/util/problem.py:ProblemSpec.evaluate_parallel", "src/SALib/util/problem.py:ProblemSpec._collect_results"]}
{"id": "C63", "title": "Results always match the declared outputs", "statement": "Whenever results are present the number of result columns equals the number of declared outputs; undeclared outputs are named Y, or Y1..Yn.", "quantifier": "every sequence of operations", "why_tests_cant": "Histories are unbounded.", "anchors": ["src/SALib/util/problem.py:ProblemSpec.results"]}
{"id": "C64", "title": "Seeded analyses are reproducible", "statement": "Running an analyser twice with the same data and the same integer seed gives the same result whatever random numbers were drawn before.", "quantifier": "every integer seed including 0, every prior random state", "why_tests_cant": "Ranges over all prior generator states; tests rarely use seed 0.", "anchors": ["src/SALib/analyze/sobol.py:analyze", "src/SALib/analyze/morris.py:analyze", "src/SALib/analyze/dgsm.py:analyze", "src/SALib/analyze/fast.py:analyze", "src/SALib/analyze/rbd_fast.py:analyze", "src/SALib/analyze/delta.py:analyze", "src/SALib/analyze/pawn.py:analyze", "src/SALib/analyze/hdmr.py:analyze", "src/SALib/util/util_funcs.py:handle_seed"]}
{"id": "C65", "title": "Sobol G-function reference indices are consistent", "statement": "For every coefficient vector the analytic first-order indices are non-negative and sum to at most 1, every total index is at least the first-order index and at most 1, and they are the true variance ratios of the G-function.", "quantifier": "every coefficient vector a >= 0, alpha > 0, of every length", "why_tests_cant": "All real vectors.", "anchors": ["src/SALib/test_functions/Sobol_G.py:sensitivity_index", "src/SALib/test_functions/Sobol_G.py:total_sensitivity_index", "src/SALib/test_functions/Sobol_G.py:_total_variance", "src/SALib/test_functions/Sobol_G.py:_partial_first_order_variance"]}
{"id": "C66", "title": "HDMR B-spline basis is a non-negative partition of unity", "statement": "On [0,1], the clipped B-spline basis functions used by HDMR are non-negative and add up to the constant m^3 for every m, i.e. clipping only removes the extrapolated tails.", "quantifier": "every m >= 1 and every x in [0,1]", "why_tests_cant": "Continuum of x, all m.", "anchors": ["src/SALib/analyze/hdmr.py:B_spline"]}
{"id": "C67", "title": "Second-order results are reported against the right pair", "statement": "The pairwise table produced from a Sobol result lists every unordered pair of factors exactly once, and the value listed for pair (a,b) is the S2 entry of a and b.", "quantifier": "every number of factors >= 2 with distinct names", "why_tests_cant": "All sizes.", "anchors": ["src/SALib/analyze/sobol.py:Si_to_pandas_dict", "src/SALib/analyze/sobol.py:analyze"]}
{"id": "C68", "title": "eFAST results do not depend on the units of the output", "statement": "Replacing every model output y by a*y+b with a non-zero leaves the whole result of the FAST analysis unchanged: first and total order indices, both confidence values, and whether the call fails.", "quantifier": "every output vector of every length, every a != 0 and b, every M and resampling draw", "why_tests_cant": "All real vectors and factors; Fourier sums at every frequency.", "anchors": ["src/SALib/analyze/fast.py:analyze", "src/SALib/analyze/fast.py:compute_orders", "src/SALib/analyze/fast.py:bootstrap"]}
{"id": "C69", "title": "The variance eFAST divides by is the variance of the outputs", "statement": "For a block of outputs of odd length the spectral variance V of compute_orders equals the population variance of the block, so the indices are nan exactly for constant outputs; for even length V is smaller by the squared alternating sum over N^2, and there are non-constant outputs with nan indices.", "quantifier": "every output block", "why_tests_cant": "An identity between a Fourier spectrum and a variance over all real vectors of all lengths.", "anchors": ["src/SALib/analyze/fast.py:compute_orders"]}
{"id": "C70", "title": "RBD-FAST results do not depend on the units of the output", "statement": "Replacing every model output y by a*y+b with a non-zero leaves the whole result of the RBD-FAST analysis unchanged: indices, confidence values, and whether the call fails.", "quantifier": "every sample, output vector, a != 0 and b, every M and resampling draw", "why_tests_cant": "All real vectors and factors; Fourier sums at every frequency.", "anchors": ["src/SALib/analyze/rbd_fast.py:analyze", "src/SALib/analyze/rbd_fast.py:compute_first_order"]}
{"id": "C71", "title": "Fractional factorial interactions report each pair once and sum exactly the aliased pairs", "statement": "For outputs that are a second-order polynomial in the coded factors, the interaction list of the fractional factorial analysis names every unordered pair of factors exactly once, and the value of pair (a,b) is the sum of the product coefficients of all pairs (i,j) with i xor j = a xor b; the constant and the main effects do not enter.", "quantifier": "every second-order polynomial, every number of parameters up to 512", "why_tests_cant": "All coefficients and sizes; the alias structure is a statement about all pairs of pairs.", "anchors": ["src/SALib/analyze/ff.py:interactions", "src/SALib/sample/ff.py:generate_contrast"]}
{"id": "C72", "title": "DGSM: non-negative, independent of output units, zero for ignored inputs", "statement": "Every finite vi, vi_std, dgsm and dgsm_conf is non-negative; replacing every output y by a*y+b (a not 0) multiplies vi, vi_std and dgsm_conf by a^2 and leaves dgsm unchanged; a parameter that never changes the output has vi = vi_std = dgsm = 0 when no step is lost; outputs of a wrong number and confidence levels outside (0,1) are rejected.", "quantifier": "every sample, output vector, a, b and resampling draw", "why_tests_cant": "All real samples and factors.", "anchors": ["src/SALib/analyze/dgsm.py:analyze", "src/SALib/analyze/dgsm.py:calc_dgsm", "src/SALib/analyze/dgsm.py:calc_vi_mean", "src/SALib/analyze/dgsm.py:calc_vi_stats"]}
{"id": "C73", "title": "Delta method: only the order of the inputs matters, and the units of the output do not", "statement": "Replacing an input column by any strictly increasing function of it leaves its first-order index and raw delta unchanged; recording the output as a*y+b leaves the first-order index (a not 0) and the raw delta (a > 0, density estimator equivariant) unchanged.", "quantifier": "every sample, every strictly increasing transformation, all a and b", "why_tests_cant": "All transformations and samples; a test shows single ones.", "anchors": ["src/SALib/analyze/delta.py:sobol_first", "src/SALib/analyze/delta.py:calc_delta"]}
{"id": "C74", "title": "Delta method: raw delta between 0 and 1, bias-reduced delta and its confidence interval", "statement": "The raw delta is never negative, and at most 1 when the density estimates are non-negative with integral at most 1 on the grid; the reported delta is twice the raw delta minus the mean of the resampled ones, and its confidence half-width is z times their sample standard deviation.", "quantifier": "every sample, grid, density estimator and resampling draw", "why_tests_cant": "All samples, grids and draws.", "anchors": ["src/SALib/analyze/delta.py:calc_delta", "src/SALib/analyze/delta.py:bias_reduced_delta"]}
{"id": "C75", "title": "PAWN results depend only on the order of the data", "statement": "Any order-preserving transformation of the output or of the inputs, and any shuffling of the rows, leave the PAWN statistics unchanged.", "quantifier": "for all samples, outputs, numbers of slices, strictly increasing output and input maps, permutations of the rows", "why_tests_cant": "Tests compare a few runs; the claim covers every monotone transformation and every permutation.", "anchors": ["src/SALib/analyze/pawn.py:analyze"]}
{"id": "C76", "title": "PAWN and RSA report one labelled result per parameter, or per group", "statement": "Without groups there is one result per parameter, labelled by its name; with groups there is one result per group, the mean over the parameters of the group.", "quantifier": "for all problems, samples, outputs, slices/bins", "why_tests_cant": "The failing combinations (grouped RSA, a single group) are not covered by tests and the general statement needs all group assignments.", "anchors": ["src/SALib/analyze/pawn.py:analyze", "src/SALib/analyze/rsa.py:analyze"]}
{"id": "C77", "title": "The HDMR emulator reproduces the fitted values on the training data", "statement": "After a fit without bootstrap, emulate called with the training inputs and outputs returns exactly the fitted values stored in Em['Y_e'].", "quantifier": "for all samples, outputs, orders, numbers of splines and iterations", "why_tests_cant": "Tests compare with tolerance on one example.", "anchors": ["src/SALib/analyze/hdmr.py:emulate", "src/SALib/analyze/hdmr.py:_compute"]}
{"id": "C78", "title": "The HDMR emulator treats each point on its own", "statement": "The emulated value of a point is the expansion with the fitted coefficients at that point, whatever other points are emulated in the same call.", "quantifier": "for all batches and coefficients", "why_tests_cant": "A test would have to emulate the same point in different batches; the positive statement covers all batches.", "anchors": ["src/SALib/analyze/hdmr.py:emulate"]}
{"id": "C79", "title": "The HDMR indices of all terms add up to the explained share", "statement": "The sum of S over all terms is the covariance of the emulated output with the output over the variance; with an exact fit it is R/(R-1), however the fit is distributed over the terms.", "quantifier": "for all component matrices and outputs", "why_tests_cant": "All real matrices.", "anchors": ["src/SALib/analyze/hdmr.py:ancova", "src/SALib/analyze/enhanced_hdmr.py:_ancova"]}
{"id": "C80", "title": "Enhanced HDMR basis: each term has the columns of the terms nested in it", "statement": "The columns of the basis matrix are, term by term in the order of the labels, the first-order columns of the inputs of the term, then with the extended base the products for the pairs within the term, then all products of one column per input.", "quantifier": "for all numbers of parameters, polynomial orders and expansion orders", "why_tests_cant": "Tests look at sensitivity indices of one function; a wrong column block goes unnoticed.", "anchors": ["src/SALib/analyze/enhanced_hdmr.py:_basis_matrix", "src/SALib/analyze/enhanced_hdmr.py:_prod"]}
{"id": "C81", "title": "Enhanced HDMR component functions use their own columns", "statement": "The component function of a term is the product of exactly the columns of that term with their coefficients; every column belongs to one term; the emulator returns the sum over all columns.", "quantifier": "for all basis rows, coefficients, orders and polynomial orders", "why_tests_cant": "Off-by-one slices would only shift contributions between terms.", "anchors": ["src/SALib/analyze/enhanced_hdmr.py:_comp_func", "src/SALib/analyze/enhanced_hdmr.py:emulate"]}
{"id": "C82", "title": "Enhanced HDMR polynomials are orthonormal on the sample", "statement": "For every input the polynomials built from the moments of the sample have mean zero, mean square one and are pairwise uncorrelated on the sample; the polynomial of degree n exists exactly when the input takes at least n+1 different values.", "quantifier": "for all real samples and degrees", "why_tests_cant": "Needs determinant identities for every degree and sample.", "anchors": ["src/SALib/analyze/enhanced_hdmr.py:_orth_poly_coeff"]}
{"id": "C83", "title": "A ProblemSpec is built exactly from consistent definitions", "statement": "Construction succeeds exactly when names and bounds are given with the same number of entries and groups are absent, empty or one per name; num_vars is the number of names, groups default to the names, and no samples, results or analysis are held.", "quantifier": "for all names, bounds, groups and outputs", "why_tests_cant": "All combinations of missing keys and lengths.", "anchors": ["src/SALib/util/problem.py:ProblemSpec.__init__", "src/SALib/util/problem.py:_check_spec_attributes", "src/SALib/util/util_funcs.py:_define_problem_with_groups"]}
{"id": "C84", "title": "A single parameter or group is not analysed", "statement": "analyze and analyze_parallel refuse a problem with a single parameter or a single group, and leave the object unchanged.", "quantifier": "for all objects, analysers and groups", "why_tests_cant": "The groups branch compares a string literal and is never reached by tests.", "anchors": ["src/SALib/util/problem.py:ProblemSpec.analyze", "src/SALib/util/problem.py:ProblemSpec.analyze_parallel"]}
{"id": "C85", "title": "Parallel analysis gives what sequential analysis gives", "statement": "For more than one parameter and at least one output analyze_parallel succeeds exactly when analyze does and leaves the same analysis, keyed by output.", "quantifier": "for all objects, numbers of outputs and analysers", "why_tests_cant": "All outputs and analysers.", "anchors": ["src/SALib/util/problem.py:ProblemSpec.analyze", "src/SALib/util/problem.py:ProblemSpec.analyze_parallel"]}
{"id": "C86", "title": "Seeded samples are reproducible", "statement": "With an integer seed, 0 included, the samplers return the same matrix whatever was drawn before, and they leave NumPy's global generator alone.", "quantifier": "for all integer seeds and all prior generator states", "why_tests_cant": "Ranges over all prior states and seeds.", "anchors": ["src/SALib/sample/latin.py:sample", "src/SALib/sample/fast_sampler.py:sample", "src/SALib/sample/morris/morris.py:sample", "src/SALib/sample/sobol.py:sample", "src/SALib/util/util_funcs.py:handle_seed"]}
{"id": "C87", "title": "Discrepancy indices are shares", "statement": "The discrepancy analysis accepts exactly non-degenerate bounds, samples within them and a varying output; each parameter's value is the discrepancy of its scatter plot in the unit square divided by the total over the parameters, so the values sum to one; for the default method they are always positive; they do not depend on units, sample order or (WD, CD, MD) the direction of the output; a group gets the mean of its members.", "quantifier": "for all problems, samples and outputs", "why_tests_cant": "Positivity for every point set is a Fourier argument; the rest ranges over all arrays.", "anchors": ["src/SALib/analyze/discrepancy.py:analyze"]}
{"id": "C88", "title": "Results can be tabulated", "statement": "After a successful analysis to_df succeeds, has one row per label, and the row of a label holds that label's values.", "quantifier": "for all problems and data accepted by the analysis", "why_tests_cant": "Ranges over all problems, groupings and modes.", "anchors": ["src/SALib/util/results.py:ResultDict.to_df", "src/SALib/analyze/sobol.py:to_df", "src/SALib/analyze/ff.py:to_df", "src/SALib/analyze/discrepancy.py:analyze", "src/SALib/analyze/morris.py:analyze"]}
{"id": "C89", "title": "What the Sobol estimators estimate", "statement": "On the cross-sampling design each reported S1, ST, S2 is a numerator over the variance of the outputs at A and B.  For independent base rows and every square-integrable model, the mean of the ST numerator is the total effect of the group, the mean of the S2 numerator is the interaction of the two groups, the mean of the S1 numerator is the closed effect up to an explicit term of at most Var/N, and the mean of the denominator is (2N-1)/(2N) Var.", "quantifier": "for all models, input distributions, groupings and sample sizes", "why_tests_cant": "Expectations over all random samples; a test sees one sample, and the 1/N bias is below its noise.", "anchors": ["src/SALib/analyze/sobol.py:first_order", "src/SALib/analyze/sobol.py:total_order", "src/SALib/analyze/sobol.py:second_order", "src/SALib/analyze/sobol.py:analyze"]}
{"id": "C90", "title": "The Sobol analysis is consistent", "statement": "For independent base rows, with probability one, the reported S1, ST and S2 converge to the variance-based indices of the model as the number of rows grows; for the library's G-function they converge to sensitivity_index and total_sensitivity_index.", "quantifier": "for all square-integrable models with positive variance, input distributions and groupings", "why_tests_cant": "A limit over infinite sequences of samples.", "anchors": ["src/SALib/analyze/sobol.py:analyze", "src/SALib/test_functions/Sobol_G.py:sensitivity_index", "src/SALib/test_functions/Sobol_G.py:total_sensitivity_index"]}
{"id": "C91", "title": "Indices of the Ishigami function", "statement": "evaluate gives sin x1 + A sin^2 x2 + B x3^4 sin x1 for each row; for inputs uniform on [-pi, pi] the closed and total effect of every set of inputs are the known partial variances; sampled, evaluated and analysed, S1, ST and S2 converge to these ratios with probability one, and for A = 7, B = 0.1 the first-order indices are the documented 0.3139, 0.4424 and 0.", "quantifier": "for all A, B, sets of inputs and random designs", "why_tests_cant": "The reference values are integrals over the input space; a test compares one noisy estimate with rounded constants.", "anchors": ["src/SALib/test_functions/Ishigami.py:evaluate", "src/SALib/analyze/sobol.py:analyze"]}
{"id": "C92", "title": "Indices of the linear models", "statement": "For independent inputs with any distributions of finite variance, S1 and ST of an input (or group) of a linear model are both its share c^2 Var of the variance, S2 is zero, and the reported indices of linear_model_1 (any number of inputs, any groups) and linear_model_2 converge to these with probability one.", "quantifier": "for all input distributions, numbers of inputs and groupings", "why_tests_cant": "A limit over random designs, for every input distribution.", "anchors": ["src/SALib/test_functions/linear_model_1.py:evaluate", "src/SALib/test_functions/linear_model_2.py:evaluate", "src/SALib/analyze/sobol.py:analyze"]}
{"id": "C93", "title": "Outputs of the lake problem", "statement": "evaluate returns the largest simulated pollution, the discounted benefit over nvars steps, the fraction of steps in which the decision is unchanged (inertia) and the fraction of states below the critical pollution (reliability, 1 when no state crosses it).", "quantifier": "for all parameter rows, inflows and numbers of steps", "why_tests_cant": "The defect is silent: each output is a plausible number between 0 and 1.", "anchors": ["src/SALib/test_functions/lake_problem.py:evaluate", "src/SALib/test_functions/lake_problem.py:evaluate_lake", "src/SALib/test_functions/lake_problem.py:lake_problem"]}
{"id": "C94", "title": "Backfitting never fits worse", "statement": "Each sweep of hdmr's first-order backfitting lowers the penalised sum of squares by at least the penalty times the squared change of the coefficients; the loop ends after a number of sweeps bounded independently of maxiter, no worse than the separate fits it starts from; coefficients a sweep leaves unchanged are the joint minimiser.  The passes of enhanced_hdmr never increase the plain sum of squared residuals, the residual returned is that of the final coefficients and orthogonal to the last component function, and a fixed point is the least-squares solution whatever l2_penalty is.", "quantifier": "for all data, numbers of terms, coefficients, penalties and iteration limits", "why_tests_cant": "Descent is a statement about every iterate on every data set; a test sees the indices after the last one.", "anchors": ["src/SALib/analyze/hdmr.py:_first_order", "src/SALib/analyze/enhanced_hdmr.py:_first_order", "src/SALib/analyze/enhanced_hdmr.py:_second_order"]}
{"id": "C95", "title": "D-MORPH picks the most orthogonal fit", "statement": "With the extended base enhanced_hdmr returns coefficients that fit the output in the least-squares sense and, among all that do, violate the hierarchical orthogonality of the components (zero mean, orthogonal to the copied lower-order columns) the least.", "quantifier": "for all samples, outputs, numbers of inputs, polynomial orders and bootstrap counts", "why_tests_cant": "A fit that is not the most orthogonal one predicts equally well, so the emulator tests pass; optimality is a statement about all other coefficients.", "anchors": ["src/SALib/analyze/enhanced_hdmr.py:_d_morph", "src/SALib/analyze/enhanced_hdmr.py:_cost_matrix", "src/SALib/analyze/enhanced_hdmr.py:_fanova"]}
{"id": "C96", "title": "Command-line options reach the call", "statement": "Every option given on the command line of a sampler or an analysis reaches the parameter it stands for with its value, an option left out leaves the function's default, data are read from the files, column and delimiter given, and samples are written to the file asked for.", "quantifier": "for all command lines of all 19 methods", "why_tests_cant": "Tests run a few command lines and look at the printed table; an ignored option changes nothing visible.", "anchors": ["src/SALib/sample/common_args.py", "src/SALib/analyze/common_args.py", "src/SALib/sample/sobol.py:cli_action", "src/SALib/analyze/hdmr.py:cli_action", "src/SALib/analyze/enhanced_hdmr.py:cli_action", "src/SALib/sample/morris/morris.py:cli_parse", "src/SALib/analyze/morris.py:cli_parse", "src/SALib/analyze/pawn.py:cli_action", "src/SALib/analyze/rsa.py:cli_action"]}
{"id": "C97", "title": "What the Morris statistics estimate", "statement": "On an even number of levels mu, mu_star and the square of sigma are unbiased for the mean elementary effect, the mean absolute elementary effect and the variance of the elementary effect over all points of the level grid, and converge to them with probability one: every point of the grid from which a parameter can move up is equally likely to be used.", "quantifier": "for all models, groups, bounds, even numbers of levels and numbers of trajectories", "why_tests_cant": "A biased trajectory generator (a point of the grid favoured, a direction tied to the order of the groups) still passes every test of single trajectories.", "anchors": ["src/SALib/sample/morris/morris.py:_generate_trajectory", "src/SALib/sample/morris/morris.py:_compute_b_star", "src/SALib/sample/morris/morris.py:_generate_x_star", "src/SALib/analyze/morris.py:_compute_statistical_outputs", "src/SALib/analyze/morris.py:_compute_elementary_effects"]}
{"id": "C98", "title": "dgsm bounds the total index", "statement": "The reported dgsm of a parameter is an upper bound of its total Sobol index (docstring of calc_dgsm: S_tot <= dgsm), up to the sampling error.", "quantifier": "for all differentiable models, bounds, steps and base points drawn independently and uniformly", "why_tests_cant": "The tests compare two numbers for one model; that the bound holds for every model is the Poincare inequality with constant 1/pi^2, and that it can be lost through the step shows only on other ranges.", "anchors": ["src/SALib/analyze/dgsm.py:calc_dgsm", "src/SALib/analyze/dgsm.py:calc_vi_mean", "src/SALib/analyze/dgsm.py:analyze", "src/SALib/sample/finite_diff.py:sample"]}
{"id": "C99", "title": "the Sobol sequence stratifies several columns at once", "statement": "In any set of columns, every block of 2^m rows starting at a multiple of 2^m has exactly its share of rows in every dyadic box whose volume is at least 2^(t-m), where t is the sum of the columns' polynomial degrees, each less one; in the first two columns t = 0, and the first D columns have one row of every block of 2^D in each orthant. Sample means of functions that are constant on such boxes are exact.", "quantifier": "for all sets of columns among the 21201, box shapes, block sizes up to 2^31 and blocks; orthants for all D up to 31", "why_tests_cant": "This is the reason for using the sequence, and it needs all direction numbers and polynomials to be right jointly: a table with a repeated or reducible polynomial passes every one-column check. The tests compare a few rows with stored values.", "anchors": ["src/SALib/sample/sobol_sequence.py:sample", "src/SALib/sample/directions.py", "src/SALib/sample/saltelli.py:sample"]}
{"id": "C100", "title": "error bounds for means and Sobol indices from the Sobol sequence", "statement": "Divide the range of input j into 2^(k j) equal parts. If t + sum of k j <= m (t: loss of the divided columns), the mean of a function over an aligned block of 2^m rows of the sequence differs from the integral by at most the variation of the function within a box. Sampling with saltelli.sample at N = 2^m and analysing any row-wise model of uniform inputs gives indices S1, ST, S2 of every group within 10, 8, 24 times K d / (V - 4 K d) of the true indices (K: bound of the output, d: its variation within a box, V: its variance); for models that are constant within the boxes the reported indices are exact.", "quantifier": "for all numbers of inputs, bounds, groupings, grids, sample sizes 2^m up to the limit of the generator, and all measurable bounded models", "why_tests_cant": "No probability is involved: this is what the quasi-random sample guarantees, from the direction numbers through scaling and cross design to the estimator. Tests compare the indices of one function with loose tolerances, which a less even sample would also meet.", "anchors": ["src/SALib/sample/saltelli.py:sample", "src/SALib/sample/sobol_sequence.py:sample", "src/SALib/analyze/sobol.py:analyze", "src/SALib/util/__init__.py:scale_samples"]}
{"id": "C101", "title": "Latin hypercube means", "statement": "With fair random choices (all orders of the strata equally likely, positions within the strata independent and uniform) the mean of any square-integrable output over the sample of latin.sample has the mean of the output as its expectation, where all inputs of a group sit at the same fraction of their ranges and different groups are independent. Its variance is at most V / (N - 1) (V: variance of the output); at most V / N if the output is monotone in every group; for an output that is a sum of functions of the groups it is the sum of the variances within the strata over N^2; for a linear output it is V / N^3.", "quantifier": "for all problems with uniform bounds, all groupings, all N, all measurable square-integrable models", "why_tests_cant": "An expectation and a variance over all seeds cannot be observed in a test; a sampler that shuffles two columns together, or jitters all strata alike, passes the tests on ranges and strata but is biased or loses the variance bound.", "anchors": ["src/SALib/sample/latin.py:sample", "src/SALib/util/__init__.py:scale_samples", "src/SALib/util/util_funcs.py:compute_groups_matrix"]}
{"id": "C102", "title": "Plots label the numbers rightly", "statement": "The plots show every number beside its own label: a row of the heat map holds the indices named beside it, one for each input; in the bar charts each bar is as high as the entry of the result for its input and index, with the error bar of the confidence column of that index; in the Morris bar plot every input has one bar with its own name, mu_star and mu_star_conf, in increasing order of the metric chosen; each sample histogram is of the column it is named after.", "quantifier": "for all problems, results and selections of indices", "why_tests_cant": "The tests only check that plotting does not raise, on one or two results; a label shifted by one row or the error bars of another index pass unnoticed.", "anchors": ["src/SALib/plotting/heatmap.py:heatmap", "src/SALib/plotting/bar.py:plot", "src/SALib/plotting/morris.py:horizontal_bar_plot", "src/SALib/plotting/morris.py:sample_histograms", "src/SALib/util/results.py:plot", "src/SALib/util/problem.py:plot"]}
{"id": "C103", "title": "Delta analysis as a whole", "statement": "Every fitting sample is analysed unless a density estimate fails. Each key has one entry per input, computed from that input's own column: balanced and raw deltas are twice the estimate less the mean of the resampled estimates, delta_step likewise or nan with too few values on a side of zero, S1 from the drawn rows. An input for which the rows of a mode cannot be drawn is nan from that mode on and noted; the other inputs are not affected. Method sobol reports every S1 in [0, 1]. The checks refuse exactly what they name.", "quantifier": "for all problems, samples, outputs, bin specifications, methods and draws", "why_tests_cant": "The tests look at one test function with fixed seeds; the paths on which a mode fails for one input, or all of them, are not compared with anything.", "anchors": ["src/SALib/analyze/delta.py:analyze", "src/SALib/analyze/delta.py:bias_reduced_delta", "src/SALib/analyze/delta.py:exception_handler"]}
{"id": "C104", "title": "HDMR results as a whole", "statement": "The settings are accepted exactly within the ranges checked. Every fit uses R different rows of the sample. The indices of each fit are the covariance of a term with the output, its variance and its covariance with the other terms, over the variance of the output on those rows; the result reports for each term the mean over the fits and a multiple of the standard deviation, for each input the total over the terms it takes part in, nan totals for the other terms, and the sums. One fit, or fits to all rows, give half widths 0. The table repeats the columns.", "quantifier": "for all samples, outputs, settings, permutations and regularised solvers", "why_tests_cant": "The tests run one sample with one setting and compare a few rounded numbers; how entries depend on the fits is not looked at.", "anchors": ["src/SALib/analyze/hdmr.py:analyze", "src/SALib/analyze/hdmr.py:_check_settings", "src/SALib/analyze/hdmr.py:_init", "src/SALib/analyze/hdmr.py:_compute", "src/SALib/analyze/hdmr.py:_finalize", "src/SALib/analyze/hdmr.py:to_df", "src/SALib/analyze/enhanced_hdmr.py:_finalize"]}
{"id": "C105", "title": "HDMR printed report", "statement": "The printed report has one line per term with the entries of the result for that term, a total for exactly the inputs, the number of fits in which the term was selected, and the sums; printing does not change the result.", "quantifier": "for all results of an analysis", "why_tests_cant": "Nothing tests what is printed.", "anchors": ["src/SALib/analyze/hdmr.py:_print", "src/SALib/analyze/hdmr.py:_finalize", "src/SALib/analyze/enhanced_hdmr.py:_print"]}
{"id": "C106", "title": "Scaling in floating point", "statement": "With every operation rounded to nearest, ties to even, scaling the unit interval keeps each value between its bounds, keeps the order, and is within a few units in the last place of the exact value; unscaling gives values of the unit interval.", "quantifier": "for all binary formats with gradual underflow, all legal bounds and all unit values", "why_tests_cant": "The tests compare with a tolerance or with bounds whose width is exact.", "anchors": ["src/SALib/util/__init__.py:_scale_samples", "src/SALib/util/__init__.py:_unscale_samples"]}
{"id": "C107", "title": "Whole numbers computed through floating point", "statement": "Sample sizes recovered by a rounded division and a truncation are the integer quotients; the frequencies of FAST computed through linspace and floor are at least 1, do not overlap with the highest frequency and are different where there is room.", "quantifier": "for all outputs smaller than 2^53 entries and all settings", "why_tests_cant": "A division that rounds up to a whole number appears only at particular sizes.", "anchors": ["src/SALib/analyze/sobol.py:analyze", "src/SALib/analyze/morris.py:analyze", "src/SALib/analyze/fast.py:analyze", "src/SALib/sample/fast_sampler.py:sample"]}
{"id": "C108", "title": "Bit count from a rounded logarithm", "statement": "The number of bits of the Sobol sequence computed from a rounded quotient of logarithms gives the same points as the exact one, and the default number of skipped points keeps the base sample one per interval of length 1/N.", "quantifier": "for all N up to 2^30, all dimensions and all rounded quotients within 2^-32", "why_tests_cant": "The rounding depends on the library of the machine; the tests use a few sizes.", "anchors": ["src/SALib/sample/sobol_sequence.py:sample", "src/SALib/sample/saltelli.py:sample"]}
{"id": "C109", "title": "Morris in floating point", "statement": "With every operation rounded, the unit values of Morris trajectories stay in [0, 1] and near the levels; after scaling every parameter still moves strictly up or down exactly at the turn of its group and keeps its value to the last bit otherwise; each elementary effect is the rounded difference of the two outputs around the turn over delta, with the right sign; parameters that the model ignores get effects of exactly 0.", "quantifier": "for all binary formats with room, all numbers of levels up to 2^p/16, all draws, groups and legal bounds with a width of at least the smallest normal number, and all outputs", "why_tests_cant": "The tests use ranges of ordinary width, where every move is large against the rounding.", "anchors": ["src/SALib/sample/morris/morris.py:_generate_trajectory", "src/SALib/sample/morris/morris.py:_generate_x_star", "src/SALib/sample/morris/morris.py:_compute_b_star", "src/SALib/util/__init__.py:_compute_delta", "src/SALib/util/__init__.py:_scale_samples", "src/SALib/analyze/morris.py:_compute_elementary_effects"]}
{"id": "C110", "title": "Latin hypercube sampling in floating point", "statement": "With every operation rounded, the cells that the code computes still tile an interval from 0 to at most 1 without a gap or an empty cell, follow the exact edges j/N up to a relative error of 3*2^-p, and every column has exactly one value for each cell (edges included); scaling keeps this between the scaled edges and never gives a value under the lower bound; grouped parameters move together.", "quantifier": "for all binary formats with room, all N up to 2^p/8, all uniform draws in [0, 1), all shuffles, groups and legal bounds", "why_tests_cant": "The tests look at a few small N; the exact strata are in fact missed by rounding for some N, so only the statement about computed cells can hold for all.", "anchors": ["src/SALib/sample/latin.py:sample", "src/SALib/util/__init__.py:_scale_samples"]}
{"id": "C111", "title": "Finite differences and DGSM in floating point", "statement": "With every operation rounded: the Sobol points carry no error; a finite-difference row differs from its base row in one coordinate only, stays within both bounds, and its step can be read off the sample without error; a normal step of relative size at least 2^(1-p) is never lost unless the point lies on the bound; vi is within N + 5 relative roundings of the exact mean of squared quotients, whatever order numpy sums in, so for an output linear in a parameter it is the squared coefficient up to that error; the index dgsm is within five further roundings of vi times the squared width over the computed variance; vi_std is the root of a number near the variance of the computed squared quotients and the confidence value z times the root of a number near the sample variance of resampled vi; no statistic is negative; ignored parameters get exactly 0; one lost step makes vi, vi_std and dgsm of that parameter not finite.", "quantifier": "for all binary formats with room, all summation orders, all legal bounds that are numbers of the format, all base sample sizes, steps, outputs and bootstrap draws", "why_tests_cant": "The tests compare a few runs with a tolerance; they cannot separate rounding noise in the quotient (a small difference divided by a small step) from a real sensitivity.", "anchors": ["src/SALib/sample/finite_diff.py:sample", "src/SALib/analyze/dgsm.py:analyze", "src/SALib/analyze/dgsm.py:calc_vi_stats", "src/SALib/analyze/dgsm.py:calc_dgsm"]}
{"id": "C112", "title": "Saltelli samples in floating point", "statement": "With every operation rounded the sample is still a cross-sampling design bit for bit: coordinates that a row shares with A or B are equal to the last bit.  Every entry is a number of the format, within its bounds (the upper bound included) and next to the exactly scaled Sobol point.", "quantifier": "for all binary formats with at least 32 bits and room below, all legal bounds that are numbers of the format, all groupings, base sample sizes, skips, with and without second order", "why_tests_cant": "Tests look at a few problems; whether a coordinate is copied or recomputed with a different rounding shows only on particular bounds.", "anchors": ["src/SALib/sample/saltelli.py:sample", "src/SALib/sample/sobol.py:sample", "src/SALib/util/__init__.py:_scale_samples"]}
{"id": "C113", "title": "Sobol indices in floating point", "statement": "With every operation rounded and sums in any order: S1, ST and S2 are within N + 3, N + 5 and N + 5 roundings (and a fixed number of underflows) of the documented estimators of the normalised outputs; every confidence value is Z times the root of a number near the sample variance of estimates that are as accurate on the drawn rows as the indices are on all rows; no total-order index or confidence value is negative; changing the sign of the outputs changes no bit; a group the model ignores gets exactly 0 for S1, ST and their confidence values, or all of the kind are nan; constant outputs give all nan or all 0, nan whenever their sum is exact.", "quantifier": "for all binary formats, all summation orders, all outputs that are numbers of the format, all numbers of groups and base points, all bootstrap draws", "why_tests_cant": "Tests compare indices with a tolerance of a few percent, which hides both rounding noise reported as an effect and the dependence on summation order.", "anchors": ["src/SALib/analyze/sobol.py:analyze", "src/SALib/analyze/sobol.py:first_order", "src/SALib/analyze/sobol.py:total_order", "src/SALib/analyze/sobol.py:second_order"]}
{"id": "C114", "title": "Statistics of Morris effects in floating point", "statement": "With every operation rounded and sums in any order: mu and mu_star of a group of k parameters are N + k + 2 roundings away from the means of the exact effects and of their absolute values, sigma is the root of a number N + 3 roundings away from the sample variance of the computed effects; a confidence value is the mean over the group of z times the root of a number near the sample variance of resampled mu_star; with scaled=True no effect is nan and each computed effect is the rounded product of a number four roundings away from the difference quotient of the outputs and the rounded quotient of the deviations of inputs and outputs; the computed mu never exceeds the computed mu_star in absolute value and no mu_star, sigma or confidence value is negative; changing the sign of the outputs changes the sign of mu and no other bit; a group the model ignores gets exactly 0; for a parameter in which the model never decreases mu equals mu_star to the last bit.", "quantifier": "for all binary formats with room for the levels, all summation orders, all legal bounds that are numbers of the format, all groupings, trajectories, outputs and bootstrap draws", "why_tests_cant": "Tests compare a few tables after rounding to some digits, so they cannot tell whether the computed mu can exceed the computed mu_star or whether noise shows up as an effect.", "anchors": ["src/SALib/analyze/morris.py:analyze", "src/SALib/analyze/morris.py:_compute_statistical_outputs", "src/SALib/analyze/morris.py:_compute_mu_star_confidence", "src/SALib/analyze/morris.py:_compute_grouped_metric"]}
{"id": "C115", "title": "FAST samples in floating point", "statement": "With every operation rounded and a sine and an arcsine that are off by at most delta: every unit point of the eFAST sample is a number of the format in [0,1] and at most sqrt(delta/2) + delta + 16(w+1) units roundoff away from the search curve with frequency w; the largest frequency is the rounded-down (N-1)/(2M) and the others keep M times below half of it; after scaling no value lies below its lower bound, none above its upper bound if the width of the range is a number of the format or the curve keeps away from its end, and each is near the exactly scaled point.  Without that condition a value can lie above its bound.", "quantifier": "for all binary formats with at least 5 digits, all sine and arcsine routines with any error delta, all draws, N > 4 M^2, any number of parameters, all legal bounds that are numbers of the format", "why_tests_cant": "Tests compare one seeded sample with its shape or bounds; they cannot tell how far rounding moves the points of the search curve near the ends of the ranges.", "anchors": ["src/SALib/sample/fast_sampler.py:sample", "src/SALib/util/__init__.py:_scale_samples"]}
{"id": "C116", "title": "Distributed evaluation is sequential evaluation", "statement": "Evaluating the model on a cluster leaves the object exactly as evaluating it sequentially with the same arguments does, for models that treat every row on its own; when the call cannot be carried out it raises and the object stays as it is.", "quantifier": "for all objects with samples, all row-wise models with any additional arguments, any lists of servers and numbers of processors", "why_tests_cant": "There is no test of distributed evaluation; it needs a cluster and pathos.", "anchors": ["src/SALib/util/problem.py:ProblemSpec.evaluate_distributed", "src/SALib/util/problem.py:ProblemSpec._wrap_func", "src/SALib/util/problem.py:ProblemSpec._collect_results"]}
{"id": "C117", "title": "Tables of a ProblemSpec", "statement": "After an analysis to_df returns one table for every output, in the order of the outputs, table i showing the analysis of column i of the results; a single table for a single output; and a RuntimeError when there is no analysis, in particular after new samples.", "quantifier": "for all objects, all analysers and converters that may raise, all lists of output names", "why_tests_cant": "Tests convert one analysis of distinct outputs; they do not look at repeated names or at what an interrupted analysis leaves behind.", "anchors": ["src/SALib/util/problem.py:ProblemSpec.to_df", "src/SALib/util/problem.py:ProblemSpec.analyze"]}
{"id": "C118", "title": "FAST confidence values are spreads of re-estimates", "statement": "The confidence value of a FAST index is the normal quantile times the standard deviation of re-estimates of that index from resampled outputs; the re-estimates scatter around the index of the block.", "quantifier": "for all blocks of outputs, all numbers of harmonics and resamples, averaged over all draws", "why_tests_cant": "Tests compare confidence values with stored numbers of one model; the average over all draws and its independence of the model are statements about all draws and all models.", "anchors": ["src/SALib/analyze/fast.py:bootstrap", "src/SALib/analyze/fast.py:compute_orders"]}
{"id": "C119", "title": "Average indices of an input without influence", "statement": "When every assignment of the outputs to the rows is equally likely, the first-order index of RBD-FAST is 2M/((N-1)(N-2M)) on average (2M/(N-1) before the bias correction), that of the delta module is (M-1)/(N-1) for M classes, and FAST reports M/h and 1 - floor(omega/2)/h for h frequencies.", "quantifier": "for all samples, all outputs that are not constant, all sizes N and parameters M allowed, averaged over all orders", "why_tests_cant": "Tests look at one assignment of outputs; the bias of an estimator is a statement about all of them.", "anchors": ["src/SALib/analyze/rbd_fast.py:compute_first_order", "src/SALib/analyze/rbd_fast.py:unskew_S1", "src/SALib/analyze/rbd_fast.py:bootstrap", "src/SALib/analyze/fast.py:compute_orders", "src/SALib/analyze/delta.py:sobol_first"]}
{"id": "C120", "title": "Average size of bootstrap confidence values", "statement": "When every index array is equally likely, the resampled mu_star of Morris and vi of DGSM equal mu_star and vi on average, and the squares of mu_star_conf and dgsm_conf average z^2 v / N, where v is the variance with ddof=0 of the absolute effects or squared difference quotients of the N trajectories or base points; so mu_star_conf is on average at most sqrt((N-1)/N) times z standard errors, 0 with one trajectory, and dgsm_conf depends neither on the bounds nor on the variance of the outputs.", "quantifier": "for all effects, all numbers of trajectories N and resamples R >= 2, all z, averaged over all draws", "why_tests_cant": "Tests draw a few index arrays; the size of a bootstrap value is a statement about all of them.", "anchors": ["src/SALib/analyze/morris.py:_compute_mu_star_confidence", "src/SALib/analyze/dgsm.py:calc_dgsm", "src/SALib/analyze/dgsm.py:calc_vi_mean"]}
{"id": "C121", "title": "Scaled Morris effects", "statement": "With scaled=True the effect of parameter j on a trajectory of n points is the change of the output at the move of j, divided by the standard deviation of the trajectory's outputs, times sqrt((t+1)(n-1-t))/n where t is the place of the move, and 0 when the outputs are constant; so all results are unchanged when inputs and outputs are measured in other units, mu_star is between 0 and sqrt((g+1)/2) with g groups, and of two parameters on one trajectory the one with the larger change of the output has the larger effect only after weighting by the places of their moves.", "quantifier": "for all trajectories on which each parameter moves once, hence all samples of the Morris sampler, all outputs, all units", "why_tests_cant": "Tests compare scaled results on one sample with stored numbers; the dependence on units and on the place of a move is a statement about all samples.", "anchors": ["src/SALib/analyze/morris.py:_compute_elementary_effects", "src/SALib/analyze/morris.py:analyze"]}
{"id": "C122", "title": "What the PAWN indices estimate", "statement": "With independent rows the minimum, mean, median, maximum and standard deviation reported for an input converge to those of S numbers, the largest distances between the distribution of the output and its distribution given that the input is in one of S parts of equal probability, and CV converges to their ratio unless the mean is 0; with the inputs in groups each of these converges to its mean over the inputs of the group; the limits are 0 for an input of which the output is independent, and for an output that increases strictly with one input its maximum converges to 1-1/S, not 1; a finite sample with different outputs never gives 0, and without influence the mean square of the distance of a slice of n of N rows is at least k(N-k)/N^2 * (N-n)/(n(N-1)) for every number k of outputs up to a threshold.", "quantifier": "for all models, all laws of the inputs without atoms, all numbers of slices, almost all sequences of rows; for all samples and all assignments of the outputs to the rows", "why_tests_cant": "Tests compare the indices of one sample with stored numbers; limits and averages over samples are not visible in one run.", "anchors": ["src/SALib/analyze/pawn.py:analyze"]}
{"id": "C123", "title": "Enhanced HDMR results as a whole", "statement": "An enhanced HDMR analysis returns a result exactly when the terms go up to order 2, the settings pass the checks, every input takes more than poly_order values, and every fit solves; each fit uses distinct rows of the sample, all of them for one fit; the S, Sa, Sb, ST and sums reported are the averages over the fits of the shares of the fitted terms; on a sample with independent inputs (such as a full grid) one fit always finishes, and the index of a term is the sum of the squared projections of the output on its columns over the variance times N/(N-1), whatever the penalty and the number of passes, with Sb 0 and a sum of at most N/(N-1).", "quantifier": "for all problems, samples, outputs, settings, solvers and random orders", "why_tests_cant": "A test runs one sample and compares stored numbers; that the fit is a projection for every such sample, and the exact condition for a result, cannot be seen from a run.", "anchors": ["src/SALib/analyze/enhanced_hdmr.py:analyze"]}
{"id": "C124", "title": "Samples written to a file and read back", "statement": "A sample that a command writes and another reads, with a delimiter that is not part of numbers, keeps its shape; each entry becomes the binary64 number nearest to its nearest decimal of precision + 1 digits, the order of entries is kept, and an entry changes by at most 10^-precision of its size. With precision 16 or more nothing changes; bounds that need no more digits are kept. Morris effects (not scaled) and first-order delta indices are those of the sample itself whenever the digits tell the values of each parameter apart. With fewer digits, such as the default 8, different numbers can get the same text, a value can be read outside its bounds, and a parameter whose bounds have the same text gets elementary effects of 0.", "quantifier": "for all samples of at least one column, precisions, delimiters and binary formats", "why_tests_cant": "A test writes one sample with round values and one precision; the error bound, the least exact precision and the conditions under which an analysis is unaffected range over all numbers and files.", "anchors": ["src/SALib/sample/common_args.py:setup", "src/SALib/sample/sobol.py:cli_action", "src/SALib/sample/morris/morris.py:cli_action", "src/SALib/analyze/morris.py:cli_action", "src/SALib/analyze/delta.py:cli_action"]}
{"id": "C125", "title": "What the first-order index of the delta method estimates", "statement": "For rows drawn independently from any distribution of the inputs and an output with finite fourth moment, with probability one: for all large samples and numbers of resampled rows, all but a small share of the draws give an S1 close to the share of the output variance that lies between 48 classes of equal probability of the input. This limit is never above the first-order index Var(E[Y|X_j])/Var(Y), also for dependent inputs; it is 0 for an input of which the output is independent; for a uniform input on which the mean output depends linearly it is 2303/2304 of the first-order index.", "quantifier": "for all distributions without atoms in the input, models, almost all sequences of rows, all large samples and resample sizes", "why_tests_cant": "A test computes one index of one sample within a tolerance; the class count grows with the sample until 48 and the remaining gap does not vanish with more samples, so no sample size exhibits the limit.", "anchors": ["src/SALib/analyze/delta.py:sobol_first", "src/SALib/analyze/delta.py:analyze"]}
{"id": "C126", "title": "What the discrepancy indices measure", "statement": "For each of the four methods the value of a scatter plot is the weighted mean, over the boxes of the method, of the squared difference between the share of the points in the box and the area of the box (its square root for L2-star). It is positive for any finite number of points, so on legal inputs every analysis succeeds and gives each parameter its positive share of the total. For rows drawn independently from any distribution within the bounds and a bounded output, the indices converge with probability one to the shares of the same quantity for the joint distributions of input and output, although the output is scaled to the observed range. For a uniform input of which the output is independent, this quantity is 13/12 (CD), 4/3 (WD), 19/12 (MD) or 1/3 (L2-star, before the root) times the discrepancy of the output alone, and vanishes exactly if the output is uniform over its range.", "quantifier": "for all methods, legal inputs, distributions, models, almost all sequences of rows, all large samples", "why_tests_cant": "A test can compare the closed formula with itself on some points; that it equals an integral over all boxes, is positive for all point sets, and what it converges to, cannot be seen from finitely many samples.", "anchors": ["src/SALib/analyze/discrepancy.py:analyze"]}
{"id": "C127", "title": "What RBD-FAST estimates", "statement": "For rows drawn independently from any distribution of the inputs in which the analysed input takes no value with positive probability, and an output with positive finite variance, the index of rbd_fast converges with probability one: to twice the sum of the squared means of the output times cos(k pi U), k = 1..M, over the variance of the output, U being the rank of the input (the probability of smaller values). This limit is nonnegative, grows with M, is at most the first-order index Var(E[Y given X])/Var(Y), and tends to it as M grows; it is 0 if the output is independent of the input. For a uniform input on which the mean output depends linearly it is the sum of 96/(k pi)^4 over odd k up to M times the first-order index. The inputs need not be uniform or independent.", "quantifier": "for all distributions of the inputs without atoms in the analysed one, models with positive finite variance, numbers of harmonics, sorting permutations; almost all sequences of rows, all large samples", "why_tests_cant": "A test looks at one sample and one tolerance; it can show neither that the sine terms of the reordered outputs vanish for every model, nor what the index converges to, nor that the missing harmonics always make it too small.", "anchors": ["src/SALib/analyze/rbd_fast.py:analyze,permute_outputs,compute_first_order,unskew_S1"]}
{"id": "C128", "title": "What the values of regional sensitivity analysis are", "statement": "Without ties the value of a bin with n of the N = n + m samples is n m / N times the mean over all samples of the squared difference between the shares, inside and outside the bin, of values up to that sample. It is positive and at most (2 n m + 1)/(6 N), a bound attained by every monotone model. Averaged over all assignments of outputs to rows (an input without influence) it is (N + 1)/(6 N) for every bin. For independent random rows the value divided by N converges with probability one to (1/S)(1 - 1/S) times the mean squared difference of the two conditional distributions, which is 0 exactly if they agree. Strictly increasing transformations of inputs or output, and reordering the rows, change no value.", "quantifier": "for all samples without ties, numbers of bins, both targets; for the limits all distributions without atoms in the variable cut into bins, almost all sequences of rows; for the invariances all samples and all strictly increasing maps", "why_tests_cant": "A test compares one number with a stored one; it shows neither the range of the statistic for all samples, nor its size for an input without influence, nor that it grows in proportion to the number of samples.", "anchors": ["src/SALib/analyze/rsa.py:analyze,rsa,_has_samples"]}
{"id": "C129", "title": "PAWN and RSA use the number of slices and bins asked for", "statement": "For every number S of slices PAWN conditions on S slices, and for every number of bins RSA puts each sample into exactly one of S bins and to_df gives a table with S rows.", "quantifier": "for all numbers of slices and bins up to 2^49, all samples, in IEEE double precision", "why_tests_cant": "The number of levels depends on the rounding of 1/S; the tests use S = 10 and bins = 20, where it is right.", "anchors": ["src/SALib/analyze/pawn.py:analyze", "src/SALib/analyze/rsa.py:analyze,rsa,to_df"]}
{"id": "C130", "title": "The discrepancy analysis accepts the package's own samples", "statement": "discrepancy.analyze accepts every sample produced by the package's samplers for the same problem, with any outputs that are not all equal, and reports shares between 0 and 1 that add up to 1 up to rounding.", "quantifier": "for all problems, samples, outputs and discrepancy values, every operation of scaling and unscaling rounded (any format; IEEE double precision for the counterexamples)", "why_tests_cant": "Whether a value exceeds its bound depends on the last bit of scaling; the tests use Latin hypercube samples with bounds -pi and pi, whose width needs no rounding.", "anchors": ["src/SALib/analyze/discrepancy.py:analyze", "src/SALib/util/__init__.py:_scale_samples,_nonuniform_scale_samples", "src/SALib/sample/ff.py:sample", "src/SALib/sample/morris/morris.py:sample", "src/SALib/sample/latin.py:sample", "src/SALib/sample/saltelli.py:sample", "src/SALib/sample/sobol.py:sample"]}
{"id": "C131", "title": "Extended FAST indices are the Sobol indices of models within its bandwidth", "statement": "fast_sampler.sample followed by fast.analyze returns, for every model that is a polynomial of degree at most M in the sines of its (scaled) inputs, the Sobol first-order and total indices of every input.", "quantifier": "for all problems with uniform inputs, all N > 4 M^2, all M > 0, all phases and all such polynomials", "why_tests_cant": "The indices depend on whether integer combinations of the assigned frequencies cancel, for every number of inputs and sample size; the tests check Ishigami's function at one sample size with a tolerance.", "anchors": ["src/SALib/sample/fast_sampler.py:sample", "src/SALib/analyze/fast.py:analyze,compute_orders"]}
{"id": "C132", "title": "The Oakley-O'Hagan test function and its analytic indices", "statement": "oakley2004.evaluate returns a1.x + a2.sin(x) + a3.cos(x) + x'Mx for every row and refuses arguments of other shapes, and the values listed as analytic first-order indices in its example (and in the package's test) are the first-order Sobol indices of this function, with the given A and M, for the inputs of the problem stated there.", "quantifier": "for all numbers of inputs, coefficients, matrices, rows and variances of the inputs", "why_tests_cant": "The test compares the listed values with intervals of estimated indices that are wide enough for both standard deviations; it cannot tell which problem the values belong to.", "anchors": ["src/SALib/test_functions/oakley2004.py:evaluate"]}
{"id": "C133", "title": "Plots of HDMR results, of Morris results by groups and of several outputs", "statement": "plotting.hdmr.plot shows the last ten bootstrap trials and every first-order component function, each in its own panel with the data of its trial or parameter, and the emulated values against the observations; covariance_plot shows every input or group with its spread; ProblemSpec.plot draws every output of every analysis.", "quantifier": "for all numbers of bootstrap trials, parameters, groups and outputs", "why_tests_cant": "The tests never draw an HDMR result with a number of trials other than the default and no plot of several outputs of RSA or HDMR; the failures depend on a remainder.", "anchors": ["src/SALib/plotting/hdmr.py:plot", "src/SALib/plotting/morris.py:covariance_plot", "src/SALib/util/problem.py:plot", "src/SALib/analyze/hdmr.py:emulate,plot", "src/SALib/analyze/rsa.py:plot"]}
{"id": "C134", "title": "The methods of a ProblemSpec call the right function with the arguments given, and its summary says what it holds", "statement": "A ProblemSpec has exactly one method sample_m or analyze_m for every sampling and analysis module, which calls that module's function with the object as problem, its samples as X, its results as Y, the arguments given by position and by keyword for the parameters they stand for, and the defaults elsewhere; str() shows the numbers of parameters, samples, outputs and evaluations the object holds, and its analysis output by output.", "quantifier": "for all package directories, signatures, arguments, keywords, and sequences of operations on an object", "why_tests_cant": "The tests call a few of the nineteen methods with keyword arguments, in an environment without a module called morris, and never print an object.", "anchors": ["src/SALib/util/util_funcs.py:avail_approaches", "src/SALib/util/problem.py:_method_creator,_add_samplers,_add_analyzers,sample,analyze,analyze_parallel,evaluate,__str__"]}
{"id": "C135", "title": "A NumPy generator given as seed is used as documented, and so is an integer of any kind", "statement": "Every sampler and analyser whose documentation takes an integer or a numpy.random.Generator as seed accepts both, integers of Python as well as of NumPy; a generator is used itself (that instance is used); runs with the same generator in the same condition give the same result; and no generator that was not given is moved.", "quantifier": "for all functions with a seed, all seeds of all kinds NumPy knows, all states of the generators, and all sequences of calls with one generator", "why_tests_cant": "The tests pass integers of Python and fresh generators; drawing from a generator between calls, several calls with one generator, and seeds taken from an integer array are not tried.", "anchors": ["src/SALib/util/util_funcs.py:handle_seed", "src/SALib/sample/sobol.py:sample", "src/SALib/sample/latin.py:sample", "src/SALib/sample/finite_diff.py:sample", "src/SALib/sample/ff.py:sample", "src/SALib/analyze/sobol.py:analyze"]}
{"id": "C136", "title": "The error of Sobol and Morris estimates can be bounded from the number of samples", "statement": "For a bounded model, the probability that one of the reported S1, ST and S2, or one of the reported mu and mu_star, is off by more than epsilon, or that the run fails, falls exponentially in the number of samples; and a number of samples can be named that is enough for a given epsilon and a given probability.", "quantifier": "for all models bounded by some K with positive variance, all numbers of inputs and groups, all distributions of the inputs (Sobol), all even numbers of levels (Morris), all numbers of samples and all epsilon up to 1", "why_tests_cant": "The tests compare the indices of a few functions with known values at one sample size and one seed, with a tolerance chosen so that they pass; no finite number of runs shows a bound on a probability.", "anchors": ["src/SALib/analyze/sobol.py:first_order", "src/SALib/analyze/sobol.py:total_order", "src/SALib/analyze/sobol.py:second_order", "src/SALib/analyze/sobol.py:analyze", "src/SALib/sample/sobol.py:sample", "src/SALib/analyze/morris.py:analyze", "src/SALib/sample/morris/morris.py:sample"]}
{"id": "C137", "title": "The command salib reads a command line as what is written on it, and accepts the lines of its examples", "statement": "The words of the command line are an action, a method and options with values, each written as two words, with =, with the value attached to a letter, or abbreviated; the method called and the values handed to it are those written. Words that are no such spelling lead to a message and nothing is run. Every method offered can be run, and the lines in the example scripts are accepted.", "quantifier": "for all methods, all sequences of words, all spellings of every option and all texts as values", "why_tests_cant": "The tests call each method with one line, always with two words for an option; abbreviations, attached values, values starting with a dash and lines with unknown options are not tried, and the example scripts are not run.", "anchors": ["src/SALib/scripts/salib.py:main", "src/SALib/util/util_funcs.py:avail_approaches", "src/SALib/sample/common_args.py:run_cli", "src/SALib/analyze/common_args.py:run_cli", "src/SALib/sample/saltelli.py:cli_parse"]}
{"id": "C138", "title": "DGSM on the points of the Sobol sequence: which steps are lost, and how far the reported values are from the true ones", "statement": "With 2^s or more rows skipped and at most 2^M rows used, vi of a parameter is finite for every model if zero is not at a fraction of its range with denominator 2^(s+1), ..., 2^M; if zero is at a fraction with denominator 2^q and the rows 2^(q-1), ..., 2^q - 1 are used, vi and dgsm are not finite for any model; without skipped rows they are not finite for any lower bound that is zero or negative. For a model with a bounded derivative that varies little within the boxes of a grid, vi is within an explicit distance of the mean squared derivative, dgsm within an explicit distance of the derivative-based index, and the total index is at most dgsm plus that distance.", "quantifier": "for all numbers of parameters up to 21201, all bounds, all sizes, all numbers of skipped rows, all steps, all row-wise models", "why_tests_cant": "The test suite runs dgsm on one function and one size and compares with stored numbers; no test looks at bounds for which a base value is zero, at skip_values=0, or at the error.", "anchors": ["src/SALib/sample/finite_diff.py:sample", "src/SALib/analyze/dgsm.py:analyze", "src/SALib/sample/sobol_sequence.py:sample"]}
{"id": "C139", "title": "Analyses of given data on Latin hypercube samples and on independent rows: the probability of a report far from its limit is at most C/N", "statement": "For every eps > 0 there is a constant C such that, for every N, with probability at least 1 - C/N over the shuffles and the draws in the strata, analyzing the N rows that sample.latin delivers gives a report within eps of its limit: for pawn all statistics of all inputs (limits: those of the distances between conditional and unconditional distribution functions); for rsa all bins of all inputs divided by N, for both targets; for discrepancy all indices; for the first-order index of delta with all but a share eps of the resampling draws. The same holds for N independent rows with any distribution of the inputs without atoms.", "quantifier": "for all models, all numbers of inputs, all bounds, all numbers of parts or bins, all sample sizes, all probability spaces with fair shuffles and uniform draws", "why_tests_cant": "The test suite runs these analyses on one seeded sample and compares with stored numbers; nothing is said about the distribution over samples, and the theory for independent rows does not cover the dependent rows of a Latin hypercube.", "anchors": ["src/SALib/sample/latin.py:sample", "src/SALib/analyze/pawn.py:analyze", "src/SALib/analyze/rsa.py:analyze", "src/SALib/analyze/discrepancy.py:analyze", "src/SALib/analyze/delta.py:analyze"]}
{"id": "C140", "title": "RBD-FAST on Latin hypercube samples: the reports are near the harmonic shares, with enough harmonics near the first-order indices", "statement": "For every model with a fourth moment and positive variance and every eps > 0 there is a constant C such that, for every N, with probability at least 1 - C/N over the shuffles and the draws in the strata, rbd_fast.analyze on the N rows that sample.latin delivers reports for every input a number within eps of the share of the variance of the output in the first M cosine harmonics of the rank of that input. So no report is below -eps or above the first-order index by more than eps, and from some M on all reports are within eps of the first-order indices.", "quantifier": "for all models, all numbers of inputs, all bounds, all M, all sample sizes, all probability spaces with fair shuffles and uniform draws, all choices of the sort for equal values, all resampling draws", "why_tests_cant": "The test suite runs it once on 10000 Latin hypercube rows of the Ishigami function and compares with three numbers within 0.05 plus ten percent; it says nothing about other models or about the distribution over samples.", "anchors": ["src/SALib/analyze/rbd_fast.py:analyze", "src/SALib/analyze/rbd_fast.py:permute_outputs", "src/SALib/analyze/rbd_fast.py:compute_first_order", "src/SALib/analyze/rbd_fast.py:unskew_S1", "src/SALib/sample/latin.py:sample"]}
{"id": "C141", "title": "The Morris confidence intervals contain the mean absolute effect as often as the confidence level says", "statement": "Sample N Morris trajectories, run the model, analyse with R resamples at level conf. If the absolute effect of a group is not the same everywhere on the level grid, the probability that the interval mu_star plus or minus mu_star_conf contains the mean absolute effect of the group over the grid is as near to conf as one likes once N and R are large enough. If it is the same everywhere, every analysis reports exactly that number with a mu_star_conf of 0.", "quantifier": "for all models, all problems with bounds and groups, all even numbers of levels, all confidence levels, all probability spaces with fair draws and resamples, all tolerances, all large enough N and R", "why_tests_cant": "The tests compare mu_star_conf of one seeded run with a stored number; how often the interval is right is a statement about the distribution over all samples and resamples.", "anchors": ["src/SALib/analyze/morris.py:_compute_mu_star_confidence", "src/SALib/analyze/morris.py:_compute_statistical_outputs", "src/SALib/analyze/morris.py:_compute_grouped_metric", "src/SALib/analyze/morris.py:analyze", "src/SALib/sample/morris/morris.py:sample"]}
{"id": "C142", "title": "The Sobol confidence intervals contain the indices as often as the confidence level says", "statement": "Draw N independent base rows, lay them out as the cross-sampling design, run a bounded model, analyse with R resamples at level conf. For every input or group with a positive total index, the probability that S1 plus or minus S1_conf contains the first-order index is as near to conf as one likes once N and R, R at most N, are large enough; the same holds for ST and ST_conf with the total index. For an input or group with total index 0, S1, S1_conf, ST and ST_conf are all exactly 0 with probability as near to 1 as one likes. For every pair with a second-order index other than 0, S2 plus or minus S2_conf contains that index with a probability as near to conf; for a pair without interaction the same holds unless the numerator term of almost every row is 0.", "quantifier": "for all bounded measurable models, all independent input distributions, all groupings, all confidence levels, all probability spaces with independent base rows and fair resamples, all tolerances, all large enough N and R", "why_tests_cant": "The tests compare S1_conf of one seeded run with a stored number; how often an interval around a ratio of means is right is a statement about the distribution over all samples and resamples.", "anchors": ["src/SALib/analyze/sobol.py:analyze", "src/SALib/analyze/sobol.py:first_order", "src/SALib/analyze/sobol.py:total_order", "src/SALib/analyze/sobol.py:second_order"]}
{"id": "C143", "title": "The DGSM confidence intervals contain the derivative-based indices as often as the confidence level says", "statement": "Draw N independent uniform points and their steps, run a model with bounded outputs and difference quotients, analyse with R resamples at level conf. The probability that dgsm plus or minus dgsm_conf contains the derivative-based index of the difference quotients is as near to conf as one likes once N and R are large enough, whatever the unit of the output.", "quantifier": "for all bounded measurable models with bounded quotients, all bounds, all steps other than zero, all confidence levels, all probability spaces with independent points and fair resamples, all tolerances, all large enough N and R", "why_tests_cant": "The tests look at vi and dgsm of seeded runs; how often an interval is right is a statement about the distribution over all samples and resamples, and a width that belongs to another quantity looks like any other positive number in one run.", "anchors": ["src/SALib/analyze/dgsm.py:analyze", "src/SALib/analyze/dgsm.py:calc_dgsm", "src/SALib/sample/finite_diff.py:sample"]}
{"id": "C144", "title": "With a fixed number of resamples the Sobol confidence intervals cover less often than the confidence level says", "statement": "Draw N independent base rows, run a bounded model on the cross-sampling design, and analyse with a fixed number R of resamples at level conf. As N grows, the probability that S1 plus or minus S1_conf contains the first-order index, ST plus or minus ST_conf the total index, and S2 plus or minus S2_conf the second-order index, tends to the probability that a standard normal number is in absolute value at most z times the sample standard deviation of R other independent standard normal numbers, with z the normal quantile the code uses. This is less than conf for every R, by at most (1 + z^2) / (2 (R - 1)), and so tends to conf as R grows. It does not decrease with R. For R = 2 it is 2/pi arctan z, less than 72% at level 95%; with the defaults, R = 100 at 95%, or more resamples, the coverage is between 92% and 95% for all large N.", "quantifier": "for all bounded measurable models, all inputs or groups with influence and all pairs with a second-order index other than zero, all numbers of resamples from 2 on, all confidence levels, all probability spaces with independent rows and fair resamples, all tolerances, all large enough N", "why_tests_cant": "The tests compare widths of seeded runs with stored numbers or with zero; the probability that an interval is right is a statement about all samples and resamples, and a shortfall of a few parts in a thousand cannot be seen in any single run.", "anchors": ["src/SALib/analyze/sobol.py:analyze", "src/SALib/analyze/sobol.py:first_order", "src/SALib/analyze/sobol.py:total_order", "src/SALib/analyze/sobol.py:second_order"]}
{"id": "C145", "title": "With a fixed number of resamples the Morris confidence intervals cover less often than the confidence level says", "statement": "Sample N Morris trajectories with fair independent draws, run a model, and analyse with a fixed number R of fair resamples at level conf. For an input which is in no group with others and whose absolute elementary effect is not the same everywhere on the level grid, the probability that mu_star plus or minus mu_star_conf contains the mean absolute effect over the grid tends, as N grows, to the probability that a standard normal number is in absolute value at most z times the sample standard deviation of R other independent standard normal numbers, with z the normal quantile of the code. This is less than conf by an amount that does not vanish as N grows. For a group of m inputs the limit is the probability that a standard normal number is in absolute value at most z times the mean of the standard deviations of m independent sets of R others, which is also less than conf but not less than the limit for an input on its own. Neither is less than conf by more than (1 + z^2) / (2 (R - 1)); from 100 resamples on at level 95% the coverage is between 92% and 95% for all large N.", "quantifier": "for all models, all inputs or groups with an effect that varies over the grid, all bounds and even numbers of levels, all numbers of resamples from 2 on, all confidence levels, all probability spaces with fair draws, all tolerances, all large enough N", "why_tests_cant": "The tests compare mu_star_conf of seeded runs with stored numbers; the probability that an interval is right is a statement about all samples and resamples, and the shortfall cannot be seen in any single run.", "anchors": ["src/SALib/analyze/morris.py:_compute_mu_star_confidence", "src/SALib/analyze/morris.py:analyze", "src/SALib/sample/morris/morris.py:sample"]}
{"id": "C146", "title": "With a fixed number of resamples the DGSM confidence intervals cover less often than the confidence level says", "statement": "Sample N independent uniform points and their steps, run a model with bounded outputs and difference quotients, and analyse with a fixed number R of fair resamples at level conf. As N grows, the probability that vi plus or minus dgsm_conf contains the mean squared difference quotient tends to the probability that a standard normal number is in absolute value at most z times the sample standard deviation of R other independent standard normal numbers, with z the normal quantile of the code; this is less than conf by an amount that does not vanish and is at most (1 + z^2) / (2 (R - 1)). The probability that dgsm plus or minus dgsm_conf contains the derivative-based index tends to the same with z multiplied by the ratio of the standard deviations of the squared quotients and of the terms of the index.", "quantifier": "for all measurable models with bounded quotients (for the index also bounded outputs) whose squared quotients are not constant, all inputs, all bounds, all steps other than 0, all numbers of resamples from 2 on, all confidence levels, all probability spaces with independent points and fair resamples, all tolerances, all large enough N", "why_tests_cant": "The tests compare dgsm_conf of seeded runs with stored numbers or not at all; the probability that an interval is right is a statement about all samples and resamples.", "anchors": ["src/SALib/analyze/dgsm.py:calc_dgsm", "src/SALib/analyze/dgsm.py:analyze", "src/SALib/sample/finite_diff.py:sample"]}
{"id": "C147", "title": "Fractional factorial effects are right up to the rounding of the additions", "statement": "Given as many floating point outputs as the design has rows, every main effect and every interaction which the analysis reports differs from the exact contrast of the outputs (their sum with the signs of the design, divided by the number of rows) by at most ((1 + 2^-p)^(rows - 1) - 1) times the mean absolute output, plus half the smallest number of the format, whatever the order of the additions. If the outputs are multiples of one power of two and their absolute values add up to at most 2^p times it (integers, say), the report is exactly that of exact arithmetic. Sampling with rounding and analysing outputs which differ from a linear function of the sampled values by at most eps gives for every input half the distance of its two sampled values times its coefficient, and 0 for every dummy, up to eps and this bound. Another number of outputs is rejected. For other outputs the rounding can be seen: a constant model may get an effect that is not 0.", "quantifier": "for all problems of at most 512 inputs, all outputs, all binary formats whose smallest number is small enough, all orders of the additions, with and without interactions", "why_tests_cant": "The tests compare the effects of one or two fixed sets of outputs with a tolerance; the bound holds for all outputs and orders of additions, and says when no tolerance is needed.", "anchors": ["src/SALib/analyze/ff.py:analyze", "src/SALib/analyze/ff.py:interactions", "src/SALib/sample/ff.py:generate_contrast"]}
