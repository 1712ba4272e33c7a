# Formal model of SALib in Lean 4: design

Subject: the SALib source in `/repo` (pinned commit). The code was read as text;
it was neither built nor run.

## 1. Layout

* `lean/Verif/Model/*.lean` : transcription of the Python, function by function.
  Every definition cites file and lines.  Nothing is proved there.
* `lean/Verif/Spec/*.lean` : small specifications, written without using the model
  (what "stratified", "cross-sampling block", "optimal" ... mean).
* `lean/Verif/Lemmas/*.lean` : helper lemmas.
* `lean/Verif/Props/*.lean` : the property theorems, named `Cnn_...`, and next to
  each an `example` showing that its hypotheses are met by a concrete non-trivial case.
* `properties.jsonl` : the English properties; `MANIFEST.json` : which theorem proves what;
  `seeded/LOG.jsonl` : mutation attempts; `outcome: survived` marks attempts after which everything still proved.

## 2. Conventions of the model

* Exceptions are values: `Py a = Except PyErr a`, with one constructor per Python exception class
  that occurs.  Warnings are modelled only where a property mentions them.
* 1-d arrays are lists, 2-d arrays are lists of rows (or Mathlib matrices where the code does matrix
  algebra).  Index errors are modelled: cell reads and writes return `IndexError` when out of range.
* Numbers are exact: an arbitrary linear ordered field (instantiable at `Rat`, so the model runs) or,
  where roots, exponentials or trigonometry occur, `Real`.  Rounding is modelled in C106-C115, C124, C129, C130 and C147 only.
* A division whose divisor may be 0 does not silently give 0: where NumPy would produce
  nan/inf the model returns `none` ("not finite"), where Python would raise it returns an error.
* Random numbers, shuffles, resample draws and quasi-random engines outside /repo are parameters of the
  model functions.  Theorems quantify over all of them under the assumption recorded in the theorem
  (e.g. a shuffle returns a permutation of its input, a uniform draw is in [0,1)).
* `for` loops are folds; preallocated arrays filled through a running index are modelled as such
  (not as a list comprehension), and the comprehension form is a proved consequence.

## 3. Trusted base

* Lean 4.33.0's kernel, and Mathlib as installed (only its proved lemmas).
* Axioms: every theorem depends on at most `propext`, `Classical.choice`, `Quot.sound`.
  No `sorry`, no `native_decide`, no `bv_decide`, no axioms of our own.
* The transcription of Python into Lean (by hand), including our reading of NumPy / SciPy / pandas
  primitives used by the code; each such primitive is listed in the comment of its definition.
* Assumptions about external functions (random generator, argsort, scipy.qmc, fft):
  explicit hypotheses of the theorems.

* Floating point: C106-C115, C124, C129, C130 and C147 round every operation to nearest, ties to even, in a binary format with
  gradual underflow (`Spec/Float.lean`); overflow is left out, and NumPy's `linspace` is read as
  `arange * step + start` with the last entry set to `stop`. All other properties are about exact
  arithmetic.

Not modelled: floating-point rounding outside the properties just named, memory layout, what matplotlib draws (only the
data and labels handed to it are: C102, C133), the layout of printed text, progress bars,
process pools beyond "results are returned in task order or merged by key", the remote-server protocol
of `evaluate_distributed`, pandas formatting, deprecated aliases.

## 4. Per property: what is modelled, how it is proved

| id | modelled code | approach |
|----|----|----|
| C01-C03 | `_check_bounds`, `_scale_samples`, `_unscale_samples` | decision logic + algebra over an ordered field, induction on rows |
| C04-C05 | `scale_samples`, `_nonuniform_scale_samples` with the SciPy `ppf`s as parameters | refinement to a per-column specification, case analysis over distributions |
| C06 | closed forms of the `triang`, `loguniform`, `weibull_min` quantile functions over the reals | CDF(quantile u) = u by algebra |
| C07 | `compute_groups_matrix`, `extract_group_names`, `_define_problem_with_groups` | induction over label lists |
| C08 | `_check_groups` and the two consumers | equality outside the single-group case; negation with witness for the single-group case |
| C09 | `read_param_file` on parsed rows (csv tokenising not modelled) | induction over rows |
| C10-C11 | `saltelli.sample` / `sobol.sample` cross-sampling loop with running index | loop invariant, refinement to the block specification |
| C12, C18 | `separate_output_values`, size checks of `sobol.analyze` | slices with stride vs. blocks |
| C13-C16 | `first_order`, `total_order`, `second_order`, normalisation | algebra over reals; C16 is violated in exact arithmetic (0/0): negation theorem |
| C17 | `create_task_list`, `array_split`, `sobol_parallel`, `Si_list_to_dict` | merge is order independent; differences of the two code paths recorded |
| C19-C22 | `sobol_sequence.sample` | XOR-linear algebra over bit vectors, Gray code; invariants by induction |
| C23 | `directions` table, generated as Lean data | checks proved sound, evaluated in the kernel over the complete table; primitivity by bit-sliced powers of x and the order of x |
| C24 | argument checks of `saltelli.sample` | decision logic |
| C25-C26 | `latin.sample` | induction; shuffle is any permutation |
| C27-C28 | Morris trajectory generation | matrix algebra |
| C29-C32 | `morris.analyze` elementary effects and statistics | algebra, end-to-end with C27 |
| C33-C37 | Morris optimisation strategies | combinatorics of `itertools.combinations`, arg-max |
| C38-C41 | `fast_sampler.sample`, `fast.analyze`, `compute_orders` | integer arithmetic, disjointness of spectral index sets |
| C42-C43 | `rbd_fast` | permutation argument, algebra |
| C44-C47, C71 | `sample/ff.py`, `analyze/ff.py`; `scipy.linalg.hadamard` transcribed | Sylvester-Hadamard recursion by induction on the exponent; sampler, model and analyser composed |
| C48-C49, C72 | `finite_diff.sample`, `dgsm.analyze` | loop invariant, algebra; end to end for linear models |
| C50-C52, C73-C74 | `delta` binning, `sobol_first`, `calc_delta`, resampling; the kernel density estimate is a parameter | partition arguments, variance decomposition, order-preserving maps |
| C53-C55, C75-C76 | `pawn`, `rsa`; the two-sample statistics are transcribed (KS) or a parameter (Cramer-von Mises) | order statistics, interval partitions |
| C56-C58, C77-C79 | `hdmr` terms, labels, ANCOVA, F-test (a term is selected iff its F statistic exceeds the critical value), emulator (with averaged coefficients: the average of the emulators of the fits); the regressions are parameters | combinatorics of `itertools.combinations`, covariance algebra; violations proved with witnesses |
| C80-C82 | `enhanced_hdmr` basis matrix, component functions, orthonormal polynomials | running-column invariant; Gram determinants (Mathlib `PosDef`) |
| C59 | aliasing model of the problem dictionary (`Model/Alias.lean`) | heap with shared list objects; invariants over all call sequences |
| C60-C63, C83-C85 | `ProblemSpec` | state machine, invariants over all histories; chunking by `array_split` |
| C64, C86 | seeding code paths | generators as states, a world with the global generator |
| C65 | `Sobol_G` | variances over Lebesgue measure on the unit cube (Mathlib), product structure |
| C66 | `hdmr.B_spline` | polynomial identities per knot interval |
| C67 | `Si_to_pandas_dict` | combinatorics |
| C68-C69 | `fast.analyze`; `np.fft.fft` as the defining sum | discrete Parseval identity |
| C70 | `rbd_fast.analyze` | algebra |
| C87 | `discrepancy.analyze`; `qmc.scale`, `qmc.discrepancy` transcribed for two columns | closed form; positivity of the wrap-around discrepancy by the Fourier series of the second Bernoulli polynomial |
| C88 | `ResultDict.to_df` and the result dictionaries; `pd.DataFrame` as: column lengths must match the index | lengths through the analyses |
| C89 | nothing new: the estimators on the cross-sampling design; base rows are random, independent, any input distribution | reported index = numerator / variance of A and B; means of products of outputs that share some inputs by exchanging coordinates of two independent points; mean of a product of row means |
| C90 | as C89 | strong law of large numbers for the row means; for the G-function with the variances of C65 |
| C91 | `Ishigami.evaluate` row by row, `sin` of the real numbers; inputs uniform on [-π, π], random base rows | closed effects of sums of products of one-input functions from the one-dimensional moments; C90; bounds on π for the documented values |
| C92 | `linear_model_1.evaluate`, `linear_model_2.evaluate`; any input distributions of finite variance | variance of a sum of independent inputs; C90 |
| C93 | `lake_problem`, `evaluate_lake`, one row of `evaluate`; lognormal inflows and `brentq` are parameters | states by induction over the steps; counting.  Partial: reliability and inertia are not the fractions they stand for |
| C94 | the backfitting loops of `hdmr._first_order` and of `enhanced_hdmr._first_order`/`_second_order`; the linear solvers are parameters assumed to solve the systems given to them | around a solution of the normal equations the loss is a sum of squares; induction over blocks, sweeps and iterations; Cauchy-Schwarz for the bound on the sweeps |
| C95 | `_cost_matrix`, `_d_morph` and the branch `ext_base` of `_fanova`; `pinv`, `matrix_rank`, `svd` are parameters with their defining properties (shown to exist for all matrices) | the solution solves the normal equations and the cost is stationary along the kernel of the base; the rank of the projected cost equals the nullity because copied columns are orthogonal to nothing but zero; partial: fails with fewer samples than columns |
| C96 | `run_cli`, the option tables of `common_args.py` and every `cli_parse`, the call of every `cli_action`, and the signatures called; `argparse` on lines split into option and value, without abbreviations | invariant of the parser over the options consumed, for any tables without shared names; binding of positional and keyword arguments; the tables are compared by evaluation; partial: thirteen options named in the theorems |
| C97 | `morris.sample` and `morris.analyze` of C27-C32 on draws of order, directions and starting levels that are independent and equally likely | bijection between (directions, starting levels) and (own direction, point of the grid) for every order of the groups, so each starting point is met equally often; unbiased sample variance; strong law of large numbers |
| C98 (partial) | `finite_diff.sample` and `dgsm.analyze` of C48, C49 and C72 on independent uniform base points | Poincaré inequality on an interval with constant 1/π² (tangent multiplier for functions that vanish at the ends, then the primitive of the centred function), applied with all other inputs fixed; dominated convergence of the quotients for small steps; strong law of large numbers; models affine in an input give 12/π² times the total index; parabola between 100 and 101 with the default step as counterexample |
| C99 | `sobol_sequence.sample` with the shipped table, base points of `saltelli.sample` | `C99_net`: the digits of a row are a linear function of the Gray code of its index over the field of two elements; the leading rows of the generator matrices of different columns satisfy recurrences with coprime polynomials (C23: distinct and primitive), so a vanishing combination of them is a recurrent sequence with as many leading zeros as its order, hence zero (`rows_indep`, `Lemmas/ShiftRec.lean`); independent rows give equal fibres (`net_count`). `C99_step_mean`: means of step functions. `C99_orthants`: independence of the 31 x 31 matrix of leading digits and all its leading minors from triangular factors checked by the kernel. `C99_saltelli`: with the default skip the base points are an aligned block. |
| C100 | `saltelli.sample` on the shipped table, scaling to uniform bounds, any row-wise model, `sobol.analyze` | No randomness: `cell_mean` (points that fall equally often into cells of equal probability integrate a function up to its variation within a cell) with the cell counts of C99. `C100_mean`: block means of the sequence. `C100_saltelli`: sampler and analysis both succeed and every index is within an explicit distance of the true one; the numerators of `C89_formula` are means of products of outputs at mixed points, each product varies little within a pair of cells. Columns of undivided inputs do not count in the loss. `C100_exact`: models constant within the boxes. `C100_instance`: 128 base rows, two inputs, exact indices 1/3, 2/3, 1/3. The generator stops at 2^31 rows, so there is no statement for N to infinity; with many inputs the condition t + 2 sum k <= 30 leaves coarse grids only. The number of bits used by the generator is a parameter that must cover the number of rows (`math.ceil(math.log(N)/math.log(2))` in the code). |
| C101 | `latin.sample` with random orders of the strata and random positions (`FairLatin`: orders uniform on all tuples of permutations, positions independent uniform, independent of the orders), scaling to uniform bounds, any row-wise model | `latinSample_random` gives the rows in terms of the choices. A row is uniform on the cube (`strata_preserving`, `card_perm_one`). Two rows fall into cells that agree in no coordinate, each such pair equally likely (`card_perm_pair`); with the cell means as coefficients the covariance is a quadratic form in a product kernel, expanded over subsets of coordinates into squares with signs (-1/(N-1))^|u| (`pairAvg_eq`), which gives V/(N-1) for every output. Monotone outputs: one coordinate at a time by Chebyshev's sum inequality (`pairForm_insert_le`). Additive outputs: the orders cancel. `C101_grouped_inputs`: inputs of a group are dependent. `fairLatin_exists` and the example show the hypotheses are met. |
| C102 | plots as the data handed to matplotlib and the labels beside them (`Model/Plotting.lean`); result dictionaries as ordered keys with vectors, arrays and plain objects | keys selected for the heat map, `replace("_conf", "")` on character lists, `argsort` as an assumed sorting order |
| C103 | `delta.analyze` with its loop, the caught exceptions and the result dictionary (`Model/DeltaDriver.lean`), on top of the functions of C50-C52, C73, C74; a note is only recorded as being that of an exception or not | the assignments of an input as a list of stages that stops at the first exception; inversion of the driver; `C51_analyze` for the range of S1 |
| C104 | `hdmr.analyze` from the checks to the result, with the loop over the fits, and `enhanced_hdmr._finalize` for order 2 (`Model/HdmrDriver.lean`), on top of the functions of C56-C58, C77-C79; run times, the stored data and `emulate` are not in the result | inversion of the checks; entries as averages over the fits by `mapM`/`range` lemmas; fits to all rows by equivariance of the backfitting under a permutation of the rows and uniqueness of the regularised inverse |
| C105 | `_print` of both methods: the numbers of each line, not their layout | lines by unfolding; the printed number of selections through the layout of the flattened array; counter-examples for every K ≥ 2 with a term selected twice, and for every number of inputs other than 3 |
| C106 | `_scale_samples`, `_unscale_samples` with every operation rounded (`Model/Float.lean`: round to nearest, ties to even, gradual underflow, any precision) | `fl` is the one rounding of the standard (nearest, unique); monotone; error bounds by spacing; Sterbenz' lemma for exact widths; counter-example at -5, 0.2 |
| C107 | counts of `sobol`, `morris`, `fast` analyses, `math.ceil`/`floor` of halves, the frequencies through NumPy's `linspace` | a quotient of numbers below 2^p that is not whole stays away from the next whole number by more than the rounding; linspace entries within one step of the exact ones; counter-example for equality |
| C108 | bit count of `sobol_sequence.sample`, default skip of `saltelli.sample`, from a rounded quotient of logarithms | log2 of whole numbers below 2^31 keeps a distance 2^-31 from whole numbers (concavity); one bit more gives the same points (C20) and another power of two to skip |
| C109 | `morris.sample` (no optimisation, uniform), `_compute_elementary_effects` (unscaled), every operation rounded | two numbers more than half a range apart, the lower one in the lower half, never round to the same number, and a step is more than half a range; grid end exact by Sterbenz; sums with one non-zero term are exact; counter-example below the smallest normal width |
| C110 | `latin.sample` (uniform) with every operation rounded; `Generator.uniform(low, high)` as `low + (high - low) * u` | `1/N` keeps a relative error below 2^-p and edges keep their order because they are at least four last-place units apart; the width of a cell is exact (Sterbenz) from the second cell on; N * fl(1/N) rounds to at most 1; the shuffle is a bijection of positions; counter-examples for the exact strata and for the value 1 |
| C111 | `finite_diff.sample` and `dgsm.analyze` with every operation rounded (`Model/FloatDgsm`); sums follow an arbitrary tree of additions (`Model/FloatSum`), so any order numpy picks is covered; `width ** 2` is the rounded product | Sobol points are multiples of 2^-31 and pass through unrounded; the step is exact by Sterbenz; relative errors compose through `Within`, one factor per operation plus N for the sum; `dgsm` is within five roundings of `vi * width^2 / T`, with `T` the rounded product of variance and pi^2, and neither `vi` nor `dgsm` is negative (`Props/FloatDgsmIndex`); `vi_std` and the confidence value in `Props/FloatConf` | proved; the model output itself is an arbitrary number of the format, square root and pi^2 are parameters |
| C112 | `saltelli.sample` and `sobol.sample` of a problem without distributions, every operation rounded (`Model/FloatSobol`) | the Sobol points are exact (C111), crossing copies numbers without arithmetic, scaling acts on each column by itself and so commutes with crossing; bounds and error per entry from C106 | proved; SciPy's generator is a parameter whose points keep `2 ^ (1 - p)` away from 1 |
| C113 | `sobol.analyze` (serial, no kept resamples) with every operation rounded (`Model/FloatSobol`); sums follow an arbitrary tree, one for vectors and one for the columns of the resampled arrays | a calculus of absolute errors (`Spec/FloatError`: so many relative roundings of a total size plus so many underflows) carried through means, variances and quotients; exact zeros and signs by following zeros and signs through each operation | proved; accuracy is relative to the normalised outputs, whose own error is stated too; confidence values: each estimate on a draw as accurate as the index itself, the deviation relative to these estimates (`C113_conf`) |
| C114 | `morris.analyze` with every operation rounded (`Model/FloatMorrisStats`), on the samples of C109; six summation orders, one per kind of sum; masked entries of a group count as 0 in the sum, as in `np.ma.mean` | the error calculus of C113 carried through effects, means, group means and variances; `mu` below `mu_star` because rounding keeps order at every node of a sum; zeros and signs followed through each operation | proved; zeros for unscaled effects, accuracy, order and signs for scaled effects too (`C114_scaled`); confidence values relative to the resampled `mu_star` (`C114_conf`) |
| C115 | `fast_sampler.sample` with every operation rounded (`Model/FloatFast`); `np.sin`, `np.arcsin` and `np.pi` are parameters off by at most delta (`Spec.TrigNear`); frequencies as in C107 | the arcsine of the sine is Lipschitz in its argument, the arcsine itself 1/2-Hölder, which gives the root of delta; the rest is the error calculus of C106 | proved; the upper bound under a condition that `C115_above` shows to be needed |
| C116 | `evaluate_distributed` as one more operation of the state machine of C60-C63, with the additional arguments of the model explicit | the parts of a row-wise model joined are its results (the lemma behind C62), for `nprocs * len(servers)` parts; failures by computation of the branch |
| C117 | `to_df` after any state; the conversion of one analysis is a parameter that may raise (`Model/SpecTables`) | insertion into a dictionary with fresh keys appends; the loop over the outputs up to the first exception |
| C118 | `fast.bootstrap`; every draw of `np.random.choice` counts the same | variance of sums of independent draws; for a prime number of draws, multiplication of the positions by a unit permutes the frequencies; orthogonality of cosines |
| C119 | `rbd_fast` index with its correction, `fast.compute_orders`, `delta.sobol_first`, on outputs in every order | second moment of a weighted sum in random order; the variance does not depend on the order |
| C120 | `morris._compute_mu_star_confidence` and `dgsm.calc_dgsm` on every index array | second moment of a mean of draws; the sample variance of independent resamples is the variance on average |
| C121 | `morris._compute_elementary_effects` with `scaled=True`, inside `analyze` and on the sampler's output | a moved column takes two values, so its standard deviation is the jump times √((t+1)(n-1-t))/n; variance of an affine image; a jump is at most √(2n) standard deviations |
| C122 | `pawn.analyze` on the first N of independent random rows (parameter: the sequence), and on outputs in every order | strong law of large numbers; finitely many thresholds bracket all of them; empirical quantiles lie between nearby quantiles; the order statistics, mean and deviation are continuous; groups: the mean over the members of rows that are near; second moment over all orders |
| C123 | `enhanced_hdmr.analyze` from the checks to the result: `_check_settings`, first-order columns, the loop of `_fanova`, `_finalize` (`Model/EnhancedDriver.lean`; solver, D-MORPH, F quantile and random orders are parameters) | the chain of checks unfolded into `EhAccepted` (iff); slices of the basis matrix matched with the terms; orthonormal columns: after its update a block of coefficients is the projection of the output, an invariant of every pass, so it holds after the last one whatever `max_iter` is; Bessel's inequality; columns written as products of polynomials of different inputs, whose averages factor for independent inputs; full grids by induction on the inputs |
| C124 | the files between the commands: `np.savetxt(…, fmt="%.<p>e")` of every sampler, `np.loadtxt` of the analyses (`Model/SampleFile.lean`): digits, exponent, lines, comments, reading and rounding | text → digits → number by induction on the digits; `splitOn` of `intercalate`; the printed value is a nearest decimal (spacing argument as for `fl`), from which order and error follow; two numbers of a format are at least 2^-p of their size apart, so precision 16 loses nothing; Morris effects depend on signs of changes and delta on ranks, both kept |
| C125 | `sobol_first` on resampled rows as in `analyze` (`Model/Delta.lean`, `Model/DeltaAnalyze.lean`, `Model/DeltaDriver.lean`) with random rows | sums over classes are differences of sums over lowest ranks (`class_sum`); the lowest ranks and the rows below a value are nested, so the sums differ by at most √(difference in number × sum of squares) (`lowMean_near`); strong law for finitely many statistics; Chebyshev over all draws of resampled rows (`resample_near`); the limit against Var(E[Y given X]) by Cauchy's inequality on each class |
| C126 | `discrepancy.analyze` with every method (`Model/Discrepancy.lean`) | the squared difference integrated over boxes is a double integral of a kernel, by exchanging integrals (`box_bilin`, `boxDiscrepancy_eq`); the kernels of the four families of sides in closed form (`Lemmas/DiscKernels.lean`); positivity: above the largest coordinate below 1 the share of the points is constant but the area is not; limit: uniform continuity of the kernel, frequencies of the cells of a grid (`double_limit`), observed extremes against the range of the output (`scale_near`) |
| C127 | `rbd_fast.analyze` (`Model/RbdFast.lean`) with random rows | the reordered outputs summed against a cosine or sine are sums over the rows at the position of their rank (`permuted_rows`); even ranks go up and odd ranks down, so the sine of neighbours has opposite signs: random signs by parity of the rank have mean close to 0 (Hoeffding, Borel-Cantelli, `Lemmas/RankSign.lean`), continuous factors by bounded variation (`sign_continuous`); ranks against probabilities by Glivenko-Cantelli (`freq_uniform`); the rank is uniform and determines the input (`rank_law`, `rank_inverse`); cosine series: Bessel, Parseval by Weierstrass' theorem (`Lemmas/CosineBasis.lean`) |
| C128 | `rsa.analyze` (`Model/Pawn.lean`) with SciPy's two-sample Cramér-von Mises statistic (`Model/Cvm.lean`) | the rank sum of the statistic against the squared differences of the two empirical distribution functions by induction along the merged samples (`walk_identity`, `cvmStat_value`); averages over permutations by exchangeability (`sum_perm_sq`); limits from the uniform convergence of the shares of all bins (`bin_uniform`); invariance: which samples lie up to a quantile depends only on the sorted positions (`le_quantile_iff`, `lt_quantile_iff`) |
| C129 | levels of `np.arange` with rounding, quantiles at rounded levels, `rsa.to_df` (`Model/FloatLevels.lean`) | partial, the property is false of the code: relative error of the rounded step; the quotient stays within 1/2 of the wanted number and half-integers are in the format, so its ceiling is one of two numbers; S times the step is at most 1 + half a unit, which rounds to 1; a quotient above S is at least one spacing above it, which forces the last level below 1 (`levelOf_lt_one`) |
| C130 | `discrepancy.analyze` with rounding (`Model/FloatDiscrepancy.lean`) on samples of the rounded samplers | partial, the property is false of the code: closed form as for C87 (`discParamsFl_eq`); unscaled values stay in [0, 1] because rounding is monotone; samples within the bounds by C106, C109, C110, C112; the factorial sample has a point with all parameters at the rounded `(hi - lo) + lo`; means of groups (`C130_groups`, `Props/FloatDiscGroups.lean`); counterexamples computed in binary64; half of the normal distribution lies below its mean |
| C131 | `fast_sampler.sample`, a model that is a polynomial in the sines of its inputs, `fast.analyze` (models of C38-C41) | partial, the property is false of the code: along the search curve the output is a trigonometric polynomial in two times (`Lemmas/TorusPoly.lean`), whose harmonics the sample size keeps apart (`Lemmas/TorusSpectrum.lean`); the three spectral sums are the variances of the output with the analysed input uniform and the others on one closed curve (`Lemmas/TorusEffects.lean`); without cancelling frequencies means along the curve are means over the cube (`Lemmas/TorusProduct.lean`, `Lemmas/FastSobol.lean`); counterexamples with shared and with equally spaced frequencies |
| C132 | `oakley2004.evaluate` with arrays as lists of rows, and the tables `M`, `A`, `bounds` and `analytic` of its example as rationals (`Model/Oakley.lean`); independent normal inputs with mean 0 | partial, the property is false of the code: moments of polynomials times sines and cosines under a normal law from its moment generating function on the imaginary axis (`Lemmas/GaussMoments.lean`); variance and conditional means of sums of functions of one input and products of two (`Lemmas/QuadVariance.lean`); the numbers: each variance is a polynomial in `e^(-v/2)` with rational coefficients, checked in the kernel at a rational lower bound with a bound for the slope (`Lemmas/OakleyTable.lean`) |
| C133 | `plotting/hdmr.py` (the loops with the local variables `fig` and `it`, which may be unassigned), `covariance_plot`, `ProblemSpec.plot` over several outputs, as data handed to matplotlib (`Model/PlotHdmr.lean`) | partial, the property is false of the code: induction over the panels for loops that start at a multiple of the panels in a figure; the `sigma` of a group from the group matrix (C07) |
| C134 | `avail_approaches` with `pkgutil.walk_packages` (the import of a bare package name is a parameter), `_add_samplers`, `_add_analyzers`, the argument binding of the calls made by `sample`, `evaluate`, `analyze` (`functools.partial`), and `__str__` as a list of pieces | induction over the directory listing and over the text for the method names; inversion of the binding of positional and keyword arguments for any signature; invariant of C63 for the summary; the failures for every signature and directory (`C134_positional_fail`, `C134_other_module_fail`) |
| C135 | Model/SeedKinds: `handle_seed`, `default_rng`, `np.random.seed`, the generator of `qmc.Sobol`, the truth of a seed, each for integers of Python and NumPy, generators, bit generators, seed sequences, lists and arrays; a generator has a stream and a seed sequence that counts its children. `callSeeded` for the 16 functions with a seed, `callAll` for sequences of calls | Case analysis by function and kind; `C135_calls` by induction over the calls. False: the instance given is never used, a child is; NumPy integers are refused |
| C136 | Existing models of the Sobol design and analysis and of the Morris sampler and analysis; Lemmas/Hoeffding: Hoeffding's inequality for means over independent rows, for one function and for a family of functions. | Spec: true indices as in C89/C90 and C97. `C136_first`: for a model bounded by `K` with variance `V`, the probability that the analysis fails or one S1 or ST is off by more than ε is at most `(4+6g) exp(-N ε² V²/(200 K⁴))`; `C136_second`: with S2, `(4+8g+2g²) exp(-N ε² V²/(722 K⁴))`; `C136_size`: the number of base rows that is enough for a given ε and probability; `C136_morris`: for effects bounded by `K`, `4 D exp(-N ε²/(2 K²))` for all `mu` and `mu_star`, sampling included. Proved by Hoeffding for each moment that the estimators use, a union bound, and the stability of the quotient. |
| C137 | Model/CliWords: `main` of `scripts/salib.py`, with the two levels of its parser, and `argparse` (Python 3.10, 3.11) on words: which words are options, abbreviations, attached values, negative numbers; the method parsers are the tables of C96. Help and refusal are one outcome; the word `--` is left out. | Spec: `Spelled`, the ways of writing one option with its value. `C137_spelled`: any sequence of spellings is run as its options and values; `C137_only`: whatever is run is such a sequence; `C137_dash`: a value starting with a dash is refused or, if a number, `-` or with a space, kept; `C137_help`, `C137_listed`. By cases on the classes of words, and induction over the words two or one at a time. Partial: `C137_saltelli_seed_fail`. |
| C138 | `finite_diff.sample` on the shipped Sobol table, any row-wise model, `dgsm.analyze` (`Model/Dgsm.lean`, `Model/SobolSequence.lean`) | Row n with 2^q <= n < 2^(q+1) has an odd multiple of 2^-(q+1) in every column, and every such multiple occurs (`xSeq_odd`, `xSeq_hit`): this decides which base values are zero. Error bounds: means over whole blocks by `C100_mean` moved to the bounds (`netRows_mean`), quotient against derivative by the mean value inequality (`stepQuot_deriv`), ratio by `quotient_near`, total index by `C98_derivative`. `C138_instance`: the model of `C98_step_fail` with a small step. |
| C139 | `latin.sample` with random shuffles and draws, then `pawn`, `rsa`, `discrepancy`, `delta` (`Model/Latin.lean`, `Model/Pawn.lean`, `Model/Discrepancy.lean`, `Model/DeltaDriver.lean`) | `Props/GivenData.lean`. The analyses are eventually within eps of their limits along the filter `lawRows law` (long lists of rows over which the mean of every square-integrable function is near its integral, `Lemmas/LawRows.lean`); a set of this filter contains all rows for which finitely many means are near enough, and means over a Latin hypercube design or over independent rows have variance at most Var/(N-1), so Chebyshev's inequality gives C/N. Ties (RSA) and rows outside the output range (discrepancy) have probability 0. The constant is not computed. |
| C140 | `latin.sample` with random shuffles and draws, then `rbd_fast.analyze` (`Model/Latin.lean`, `Model/RbdFast.lean`) | `Props/RbdLatin.lean`. In a Latin hypercube design the rank of a row in a column is the number of its stratum, so the harmonics of the reordered output are means over the design of the output times a wave that depends on N. The cosine wave tends to `cos(k pi u)`; the sine wave changes sign from one stratum to the next, and its integral against any integrable function tends to 0 (`Lemmas/Alternate.lean`: true for continuous functions, hence in L1). The means deviate from the integrals by Chebyshev's inequality with the variance of a design mean; the corrected index is a continuous function of the harmonics and the moments. |
| C141 | `morris.sample` with random trajectories, then `morris.analyze` with random resamples (`Model/Morris*.lean`, `Model/MorrisAnalyze.lean`) | `Props/MorrisCoverage.lean`. All inputs of a group have the same absolute effect in a trajectory, so `mu_star` of a group is a mean of independent terms and `mu_star_conf` is `z` times a mean of bootstrap standard deviations of that same mean. Given the trajectories, the bootstrap variance times N is near the variance of the observed effects except for a share C/R of the index arrays (`Lemmas/Bootstrap.lean`, fourth moments counted over all arrays), and that variance tends to the variance over the grid. With the central limit theorem the probability of covering is squeezed between two values of the normal distribution (`Lemmas/Coverage.lean`). |
| C142 | `sobol.analyze` with random resamples on the cross-sampling design of independent base rows (`Model/Sobol*.lean`) | `Props/SobolCoverage.lean`. `Lemmas/SobolConf.lean` turns the reported values and widths into ratios of means over the rows and over the resampled rows. The error of such a ratio is, in the errors of five means, a linear term plus terms of second order (`ratioErr`, `estimate_err`). Given the rows, the means over a resample have fourth moments of order N^-2, so at all R resamples at once the second-order terms are negligible except for a share that tends to 0 as long as R is at most N (`Lemmas/RatioCoverage.lean`). What is left is the bootstrap variance of one mean, and `Lemmas/QuotientCoverage.lean` squeezes the coverage between two values of the normal distribution by the central limit theorem. The example computes the three indices 1/3, 2/3, 1/3 of a two-input model. `Lemmas/SobolInfluence.lean` and `Props/SobolInfluence.lean` remove the nondegeneracy hypothesis from S1 and ST: if the numerator term were proportional to the variance term on almost every pair of independent points, then on three or four independent points the model would be almost surely constant, or would not depend on the inputs in question. For S2 and an index other than 0, an equation between almost all independent values of the inputs of one group holds, by continuity on the support of their law, on the diagonal, where the numerator term is 0 (`ae_diagonal`, `C142_interacting`). For inputs without influence the report is exactly 0 with widths 0 (`C142_inert`). |
| C143 (partial) | `finite_diff.sample` on independent uniform points and `dgsm.analyze` with random resamples (`Model/FiniteDiff.lean`, `Model/Dgsm.lean`) | `Props/DgsmCoverage.lean`. `dgsm_run` gives `vi`, `dgsm` and `dgsm_conf` in terms of the points. The width is the bootstrap deviation of the mean squared quotient, so `Lemmas/WidthCoverage.lean` repeats the argument of C142 with the width of one mean around the error of another quotient: the limit is the normal probability of `z` times the ratio of the two standard deviations. For `vi` the ratio is 1 (`C143_vi_partial`). For `dgsm` it is `s/t` (`C143_dgsm`), which is multiplied by `c^2` if the output is multiplied by `c`, while the index stays (`derivIndex_mul`); hence `C143_units_fail`. Points at which the step is lost have probability zero (`steps_kept`). The example is the square of an input between 1 and 2. |
| C144 | `sobol.analyze` with a fixed number of random resamples on the cross-sampling design of independent base rows (`Model/Sobol*.lean`) | `Props/SobolFixed.lean`. `Lemmas/BootstrapChar.lean`: the characteristic function of a bootstrap mean given the rows tends to the normal one. `Lemmas/BootstrapLimit.lean`: so the mean over the rows and the R bootstrap means together tend to R + 1 independent standard normal numbers (Lévy's theorem). `Lemmas/StudentLimit.lean`: the event that the error exceeds the width has a null boundary under that law, the limit is `Spec.studentWithin R z`, and it is below the normal probability because the sample variance has mean 1, its root a mean below 1, and the normal probability is concave in the width. `Lemmas/FixedResamples.lean` carries this to the ratios of C142; both limits come from one statement (`CoverageLimits`). `Lemmas/StudentRate.lean` bounds the shortfall: the normal density has slopes of at most 1/4, so the normal probability lies above a parabola in the width; the sample variance of normal numbers has variance 2/(R-1) because it is independent of the sum (`variance_drawVar`), so its root is within 1/(R-1) of 1 on average. `Lemmas/StudentTwo.lean`: for two resamples the law is Cauchy's (Fubini), and 95% needs less than 2.1 standard deviations; `Lemmas/StudentMono.lean`: the sample variance is the mean of those which leave out one number, and the normal probability is concave in the variance, so the limit grows with R (Jensen); `Props/DefaultResamples.lean` has the numbers for the defaults, also for C145 and C146. |
| C145 | `morris.analyze` with a fixed number of random resamples on random trajectories (`Model/Morris*.lean`) | `Props/MorrisFixed.lean`. The draws of a trajectory have finitely many values, so fair resamples are independent of the rows as `Lemmas/StudentLimit.lean` asks (`FairResample.fresh`); the interval of an input alone in its group is the mean of the absolute effects and `z` times one bootstrap standard deviation (`morris_interval`), to which the Student limit of C144 applies. For a group the half width is the mean of the members' standard deviations: all resamples are put in one array (`FairResamples.flat`), the limit theorem is used with that mean as the width (`boot_group`), and the limit is below the level because the normal probability lies below its tangent at `z` and each standard deviation is below one on average (`studentGroup_lt` in `Lemmas/GroupStudent.lean`). |
| C146 | `dgsm.analyze` with a fixed number of random resamples on independent uniform points and their steps (`Model/Dgsm.lean`) | `Props/DgsmFixed.lean`. The joint limit of C144 holds with one function in the mean and another in the resamples (`bootVec u v`), because given the rows the bootstrap means have a limit which does not depend on the rows; so an interval around a quotient whose width comes from the resamples of another mean has the Student probability of the rescaled `z` (`Lemmas/WidthLimits.lean`). `vi_limits` and `dgsm_limits` in `Props/DgsmCoverage.lean` give C143 and C146 together. |
| C147 | `ff.analyze` and `interactions` with a rounding after every operation (`Model/FloatFracFact.lean`); the order of the additions is a parameter | `Props/FloatFracFact.lean`. The products with 1 and -1 are exact and 1/(2n) is a power of two, so only the additions round (`Lemmas/FloatFracFact.lean`): error against the exact contrast (`C147_error`), none for multiples of one power of two (`C147_exact`), sampling, a nearly linear model and the analysis together (`C147_linear`, `Props/FloatFracLinear.lean`, with the orthogonality of the design), wrong number of outputs (`C147_reject`), a constant model with an effect other than 0 (`C147_constant_fail`) |

A status of `partial` in `MANIFEST.json` means that the property is false of the code; the largest true part is proved,
and theorems exhibit the failure (C08, C13, C16, C17, C35, C37, C54, C56, C57, C58, C59, C60, C61, C64, C76, C78, C80,
C84, C88, C93, C95, C96, C98, C102, C105, C106, C116, C117, C118, C129, C130, C131, C132,
C133, C134, C135, C137).

## 5. Findings (code does not satisfy the property as stated)

A theorem name in brackets means that the finding is a theorem about the model.  Without one it was seen while reading.

### Scaling and problem definitions
* `logunif` bounds that are not positive are not rejected and give nan (`C06_logunif_illegal_not_rejected`); `triang`
  with equal end points is accepted and gives nan.
* With two or more parameters that all carry one group label, the Sobol sampler makes D-column blocks but the analyser
  expects one group (`C08_single_group_mismatch`).

* In double arithmetic a scaled value may exceed its upper bound: bounds -5 and 0.2 send unit value 1 to
  0.20000000000000018 (`C106_above`). Samplers that use level 1 (Morris, fractional factorial) do reach it.

### Plots

- `heatmap` drops the arrays of another shape from the image but takes the row labels from the undropped list
  (`heatmap.py` 60, 81-82): with `index=["S1", "S2", "ST"]` the row of total indices is labelled `S2`
  (`C102_heatmap_mislabelled`). With the default selection the labels are right, since `S2` comes last
  (`C102_heatmap_sobol`).
- FAST and RBD-FAST keep their indices in lists, which have no `shape`: `heatmap` raises `AttributeError` after these
  analyses (`C102_heatmap_fast`). The same happens for any result with a plain object among the selected keys
  (`C102_heatmap_fails`), as `notes` of delta and `target` of RSA with the default selection.
- With groups, the columns of the heat map of a method that ignores groups (DGSM) are the parameters but carry the names
  of the groups (`C102_heatmap_dgsm`).
- `plot` after a fractional factorial analysis without interactions fails (`C102_plot_ff`).
- `sample_histograms` fails for ten parameters or more and for one parameter (`C102_histograms_fail`).
- `plot` of an HDMR result makes a figure only before trials whose number is a multiple of ten, but starts with trial
  `K - 10` (`plotting/hdmr.py` 46-52): for `K` above ten and no multiple of ten it reads `fig` unassigned
  (`C133_trials_fail`).  After `emulate(X)` without observations it reads a missing `Y_test` (`C133_test_fail`); after an
  earlier `emulate(X, Y)` it compares the new values with the old observations (`C133_test_stale`).
- `covariance_plot` tests `Si["sigma"] is not None` to recognise groups, but `sigma` is always an array; groups of two or
  more inputs have nan there and are not drawn (`C133_covariance`).
- `ProblemSpec.plot` passes `ax` to the plot of each of several outputs, which the plots of RSA and HDMR do not take
  (`C133_outputs_fail`).

### Latin hypercube

- `latin.sample` with `groups` gives all inputs of a group the same position in their ranges, so the sample is one of
  fully dependent inputs within a group, while `saltelli.sample` with the same problem varies them independently. The
  mean of x*y over two inputs on [0, 1] in one group tends to 1/3, not 1/4 (`C101_grouped_inputs`). The docstring does
  not say so. C101 states the mean accordingly.
* In double arithmetic the strata are not exactly `[j/N, (j+1)/N)`: for N = 3 the draw 0 of the second cell gives a
  value below 1/3 (`C110_stratum`).  The half-open cells are closed by rounding, so the value 1 can occur although the
  draws are below 1 (`C110_one`); the quantile function of an unbounded distribution is infinite there.

### Sobol
* The second-order estimator is not symmetric: an ignored factor in second position gets a non-zero S2
  (`C13_second_position_fails`).
* A constant model gives nan, not 0: outputs are divided by a zero standard deviation (`C16_constant_gives_nan`).
  With rounding it gives nan or 0 depending on the value: nan if the outputs add up without error (`C113_constant_nan`),
  but three outputs of 0.1 have a computed mean other than 0.1, so their deviation is not 0 and all indices are 0
  (example below `C113_constant_nan`).
* The parallel path with `keep_resamples=True` returns zeros for the kept resamples (`C17_kept_resamples_differ`) and
  nan instead of 0 for the confidence of a degenerate resample (`C17_constant_resample_differs`).
* One resample whose A and B outputs are all equal makes the confidence values nan, although the estimator alone would
  give 0 for it: the test for constant outputs looks at all resamples together (`C14_resampled`).
* `to_df` of a single factor raises IndexError with second order on (`C67_single_factor_fails`).
* `saltelli.sample` warns for N = 1; a negative `skip_values` is an AssertionError there and a ValueError in
  `sobol.sample`.  The bit count computed in floating point may be one too large for a power of
  two; the points are the same (`C108_sequence`).
* Centring all outputs at their sample mean makes the numerator of S1 (not those of ST and S2) biased by a term of
  order 1/N (`C89_first_mean`); with one factor and no second order its mean is V (1 - 1/(3N)).
* The command line of `sobol` drops `seed` and `skip_values`.
* `S1_conf`, `ST_conf` and `S2_conf` are `z` times the deviation of `num_resamples` values (100 by default), with `z` from the
  normal and not from Student's distribution.  For a fixed number of resamples the intervals therefore contain the index
  less often than `conf_level` says, however large the sample is (`C144_short`); the shortfall vanishes only as the number
  of resamples grows (`C144_many`), and is at most (1 + z²) / (2 (R - 1)), 2.5% for 100 resamples at level 95% (`C144_rate`). With the defaults the coverage is between 92% and 95% (`C144_default`, `C145_default`, `C145_group_default`, `C146_default`), with two resamples below 72% (`C144_fewest`). The same is true of `mu_star_conf` of Morris (`C145_short`, for groups `C145_group_short`) and of `dgsm_conf` around `vi` (`C146_short`).

### Morris
* `optimal_trajectories=True` is read as k = 1 and refused; k = 0 switches the optimisation off; a non-integer k with
  brute force ends in an AssertionError (`C37_corners`).
* The local optimisation returns an index twice when trajectories coincide (`C35_duplicates`).
* The analyser accepts outputs whose number is not a multiple of g + 1 (`morris_wrong_size_accepted`).
* Adding a constant to the outputs leaves the effects alone only for samples in which each factor changes once
  (`C32_shift_fails`); with `scaled=True` the effects do not scale with the output.
* With `scaled=True` the effect of a parameter is multiplied by √((t+1)(n-1-t))/n, where t is the place of its move in the
  trajectory: a move in the middle counts more than one at the ends (`C121_value`, `C121_place`).  For the model
  11 x0 + 10 x1 + x2 the more influential x0 gets a smaller scaled effect than x1 when it moves first (`C121_ranking_fail`);
  so the docstring's "the ranking between the ordinary elementary effects and the scaled should be the same" is false
  (`C121_ranking_docs`).
* In double arithmetic no move is lost, even for a range of two neighbouring numbers (`C109_scaled`), but for ranges
  narrower than the smallest normal number it can be (`C109_tiny`).
* `mu_star_conf` is too small for few trajectories: its square is `(N-1)/N` of the square of `z` standard errors on average,
  and it is 0 for `N = 1` (`C120_size`).

### FAST and RBD-FAST
* FAST: negative M is accepted; the analyser does not check N > 4M^2; for even block lengths the Nyquist component is
  left out, so that a non-constant output can have spectral variance 0 and indices nan (`C69_even_alternating`).
* FAST requires only N > 4M^2, which can leave fewer frequencies than there are other inputs (N = 65, M = 4, three
  inputs: 8, 1, 1).  Two inputs with the same frequency and phase are one input to the method: for X_0 - X_1 + X_2 (sines
  of the inputs) the last input gets S1 = ST = 1 instead of 1/3 (`C131_shared`).
* More points do not cure it: the frequencies of the other inputs are equally spaced, so for four inputs and an odd
  number m of free frequencies they are 1, (m+1)/2, m, and X_0 + X_1 X_3 - X_2^2 gets S1 = ST = 4/5 for the first input
  instead of 4/7 at arbitrarily large N (`C131_inconsistent`, `C131_inconsistent_large`).
* RBD-FAST: for N < 2M the bias correction reverses the ranking, for N = 2M it divides by zero (`C43_breakdown`); for
  N = 4M and 4M + 1 the bootstrap always divides by zero (`C43_bootstrap_crash`); outputs beyond the rows of X are
  ignored without a message.
* FAST resamples the outputs without their positions on the search curve, so the resampled indices have nothing to do
  with the index: on average they are M/h and 1 - floor(omega/2)/h, h the number of frequencies, for every model
  (`C118_mean_fail`, `C118_centre`; 2/9 and 8/9 for M = 4 and blocks of 73).  A block with S1 = ST = 1 and a
  rearrangement of it with S1 = ST = 0 get confidence values of the same distribution (`C118_opposite_fail`,
  `C118_order`).
* The bias correction of RBD-FAST is right up to order 1/N^2: for an input without influence the corrected index is
  2M/((N-1)(N-2M)) on average, not 0 (`C119_rbd`).  The first-order index of the delta module has no such correction;
  its average is (M-1)/(N-1) (`C119_delta`).
- The RBD-FAST index is too small in the limit unless the mean output given the input is a sum of the first M cosines of the rank: for a linear
  dependence on a uniform input the share found is 96/π⁴ ≈ 0.986 with M = 1 and about 0.9998 with the default M = 10 (`C127_linear`, `C127_below`).

* The lower frequencies come from `np.floor(np.linspace(...))`, where the rounding of `linspace` may lose a whole
  number: with 1985 points, M = 4 and 24 parameters the thirteenth frequency is 15, not 16 (`C107_lower_frequency`).
  They stay different and within range (`C107_frequencies`).
* With bounds [-5, 0.2] and the draw 1/4 the first value of a FAST sample lies above its upper bound: the arcsine
  returns exactly half of pi, the unit point is exactly 1 and the width 5.2 is rounded up (`C115_above`).  Near the
  ends of the ranges the points of the search curve have only half of the digits right, as the arcsine is vertical
  there (the square root in `C115_unit`).

### Fractional factorial
* `dists` is not extended with the dummies: sampling raises ValueError unless the number of parameters is a power of
  two, after the problem has been changed (`C44_dists_fail`).  More than 512 parameters raise TypeError
  (`C47_too_many`).
* The names list is extended in place (`C59_ff_fail`), which also changes the labels of earlier results that share it
  and invalidates given groups.
- The fractional factorial analysis of a constant model may report an effect that is not 0 but of the size of the rounding
  (2^-54 for the constant 1 + 2^-52, three inputs and additions from left to right, `C147_constant_fail`).  It is harmless;
  the bound is in `C147_error`.

### Finite differences and DGSM
* The sampler clips to the first two numbers of the bounds row also when these are distribution parameters; a clipped
  or zero base value gives a zero step and an index of nan (`C49_zero_step`).
* `dgsm_conf` is the half width of the interval of `vi`, not of `dgsm` (`C72_affine`); its average square contains neither
  the bounds nor the variance of the outputs (`C120_dgsm`).  As an interval around `dgsm` it is right with any probability
  between 0 and 1, depending on the unit of the output (`C143_units_fail`); around `vi` it is right (`C143_vi_partial`).
* The step is a fraction of the value, not of the range.  On a range that is narrow compared to its distance from zero
  every step ends at the bound and the documented `S_tot <= dgsm` fails: a parabola between 100 and 101 with the default
  step has total index 1 and `dgsm` 0.38 (`C98_step_fail`).
* With the default of 1024 skipped rows a step is lost only if zero lies at a fraction of the range with denominator 2048
  or a higher power of two, such as bounds -1 and 2047 (`C138_lost`).  With `skip_values=0` and a positive step every
  parameter whose lower bound is zero or negative gets an index of nan, whatever the model (`C138_first_row`).
* A `delta` of at most 2^-55 (about 2.8e-17) moves no point at all in double precision, and a step that is subnormal may be lost too (`C111_step`).  One lost step makes `vi`, `vi_std` and `dgsm` of that parameter not finite (`C111_lost`); neither function warns.

### Delta, PAWN, RSA
- `delta.analyze`: an exception in one mode is caught outside the loop over the modes, so an input whose balanced rows cannot be drawn loses `delta_raw`, `delta_step` and `S1` as well, and one whose step rows cannot be drawn loses `S1` (`C103_delta`, outcomes `unbalanced` and `unstepped`). A constant input has S1 = nan with method `all` but a number with method `sobol` (`C103_constant_input`, `C103_sobol`).
- `delta.analyze`: `S["notes"]` is assigned only after an input without exception (286, behind a `continue`); when every input fails the key is missing (`C103_delta`).
- `delta.analyze`: a constant output makes methods `delta` and `all` raise `ValueError` although `sobol_first` handles it on purpose (`C103_constant_output`).
* Delta: for on/off inputs the step-wise resampling draws only about three quarters of the rows (`C52_step_short`);
  custom edges ending at the maximum give an empty last class; a bin count of 0 becomes a note instead of an error; the
  "notes" key is missing when all parameters fail.
* Delta: S1 has a gap to the first-order index that does not vanish with more samples, because the class count stops at
  48; 1/2304 of the index for linear dependence on a uniform input (`C125_linear`), never upwards (`C125_below`).
* A parameter without influence keeps a discrepancy index that does not vanish with more samples: its limit is a constant of
  the method times the discrepancy of the output from the uniform distribution, over the total (`C126_inert`).  It is 0 only
  if the output is uniformly distributed over its range.
* PAWN: the values for a finite sample are never 0 (`C122_never_zero`) and the largest possible limit of the maximum is
  below 1 by the share of a slice for monotone models (`C122_own`); CV has no limit claimed for inputs without influence,
  a ratio of two numbers that both converge to 0 (`C122_inert`).
* PAWN: samples at the maximum of a column are never used (`C54_partial`).
* RSA with groups always raises an error (`C76_rsa_groups_fail`); one single group gives labels and values of
  different lengths in PAWN (`C76_single_group_fail`).  `np.arange(0, 1 + step, step)` can have an extra entry for
  inexact steps.
* Discrepancy with groups reports one value per group under the names of all parameters; `to_df` and
  `print_to_console` fail (`C88_disc_fail`).
* RSA: the docstring of `analyze` (`rsa.py` 66) says results are normalised by the maximum so that 1 is the greatest sensitivity.  Nothing is
  normalised: a monotone model reaches (2nm+1)/(6N) in the first bin (`C128_greatest`), 801/240 for 40 samples in two bins,
  and the values of an influential input grow in proportion to the number of samples (`C128_limit_Y`).
* RSA: "a value of zero indicates the two distributions are identical".  Without ties no value is 0 (`C128_value`); an input
  without influence has (N+1)/(6N), about 1/6, on average (`C128_average_X`).  Values from different sample sizes or numbers of
  bins are therefore not comparable.
* PAWN: `np.arange(0, 1 + step, step)` can have one entry too many.  The extra level is above 1 and `np.nanquantile` raises
  `ValueError`, whatever the data: `S` = 6, 9, 21, 24, 28, 29, 30 among the first thirty numbers of slices
  (`C129_pawn_fail`).
* RSA: `np.arange(0.0, 1.0, 1 / bins)` has one entry too many for 49, 98, 103, 107, ... bins (`C129_rsa_fail`).  Then the
  largest sample is in no bin, and `to_df` (also `print_to_console` and `plot`) raises `ValueError` because the index is
  longer than the columns (`C129_rsa_excess`).
* `discrepancy.analyze` can reject the package's own samples: scaling rounds a sample at the upper end of the range above
  the bound, and SciPy's `qmc.scale` raises `ValueError` for it.  With the bounds -5 and 0.2 this happens for every
  fractional factorial sample, for Morris samples at the top level and, rarely, for Latin hypercube samples
  (`C130_reject`).
* `discrepancy.analyze` ignores `dists`: for a normal parameter it takes mean and standard deviation for the range and
  raises `ValueError` (`C130_norm`).

### HDMR
* `Sa` is computed with divisor R, `S` and `Sb` with R - 1, so that S is not Sa + Sb (`C57_hdmr_gap`) and an exact fit
  sums to R/(R-1) (`C79_hdmr_exact`).
* The F-test uses the wrong number of coefficients at the first second-order and the first third-order term
  (`C58_hdmr_fail`).
* `emulate` scales the new inputs by their own extremes, so that the value at a point depends on the other points
  (`C78_hdmr_fail`).
* The seed has no effect: the generator made from it is not used (`C64_hdmr_fail`).
* `problem.update(Si)` overwrites `names` of a ProblemSpec (`C59_hdmr_spec_fail`).
* `_first_order` leaves `T1` undefined for a singular matrix; `Si["select"]` has n*K entries; the `*_sum_conf` entries
  are always 0; documented and checked ranges differ.
* `Sa_sum_conf`, `Sb_sum_conf`, `S_sum_conf` are the standard deviation of a single number, 0 for every input (`C104_results`).
* The resampling is without replacement: with R = N all fits agree and every interval has width 0 (`C104_all_rows`), although
  such an R is accepted as the largest.
* `_print` shows `Si["select"][i]` beside term i; that array is flattened over terms and fits, so for K > 1 it is the marker of
  term i/K in fit i%K (`C105_select_partial`), never the number of selections announced in the head line (`C105_select_fail`).
* `print_to_console=True` removes the six sums from the result returned (`C105_printing_drops_sums`).
* `enhanced_hdmr._print` takes the number of nan totals for the number of inputs; totals appear on the right lines only for
  three inputs (`C105_enhanced_fail`): with two inputs one total is left out, with four two pairs get "(nan)" totals.
* Enhanced HDMR: only order 2 runs to the end (`C56_enhanced_fail`, for the whole analysis `C123_finishes`); an input with no
  more than `poly_order` different values leaves no basis (`C123_basis`), which is not among the checks; the copied second-order columns of third-order
  terms are those of other pairs for four or more parameters (`C80_layout_fail`); the names list is extended in place,
  so a second analysis is refused (`C59_enhanced_fail`); too few distinct values give nan (`C82_defined`); `emulate`
  does not add the mean; the change of `max_order` for two parameters is lost.
* `hdmr._second_order` and `_third_order` fit every term to the same residual and subtract all of them, so what terms share is
  subtracted once per term; the residual can grow (`C94_higher_fails`).  Only the first order is backfitted.
* `enhanced_hdmr._first_order`/`_second_order` apply `l2_penalty` only to the starting point; every pass solves unpenalised
  systems, so the penalty does not regularise the result (`C94_enhanced`, `C94_enhanced_single`).  A component whose columns are
  dependent passes the penalised start and then raises `LinAlgError` outside the `try` that suggests a larger penalty
  (`C94_enhanced_singular`).  `max_iter + 1` passes are allowed, not `max_iter`.
* `_d_morph` takes `min(b_m.shape) - rank` for the dimension of the null space; with fewer samples than columns that is too small
  (0 for independent samples), nothing is removed, and the least-norm fit is returned whatever the cost
  (`C95_few_samples`, `C95_few_samples_fail`).  10 inputs with `polynomial_order=3` have 705 columns, while 300 samples
  are accepted.  `bootstrap` is passed for `subset`, which has no influence.

### Seeds
* `if seed:` treats seed 0 as no seed in delta, dgsm, enhanced_hdmr, fast, sobol and hdmr (`C64_zero_fail`).
* The samplers say of a `Generator` given as seed "that instance is used"; `handle_seed` and `qmc.Sobol` use its next child,
  so the sample does not depend on what was drawn from the instance (`C135_instance_fail`), and calls that draw nothing
  (`finite_diff.sample`, `ff.sample`) still change the samples after them (`C135_idle_counts`).
* `handle_seed` refuses NumPy integers, such as `seeds[k]` for an integer array, with a ValueError (`C135_npint_fail`).
* `analyze/ff.py` and `pawn.py` draw nothing but reseed the global generator (`C135_global_moved`).
* An array of several integers is a ValueError in every function with `if seed:` (`C135_array_fail`).

### ProblemSpec
* `evaluate` accepts a model that returns another number of rows (`C60_evaluate_fail`), and assigning `results`
  bypasses the row check of `set_results`.
* `set_samples`, `set_results` and `evaluate` keep an old analysis (`C61_set_samples_fail`, `C61_evaluate_fail`).
* Output names stay those of the first results (`C63_sticky`).
* With `p_tqdm` installed `evaluate_parallel` always raises TypeError (`C62_ptqdm_fail`).
* The guard against a single group tests `len("groups") == 1` and never fires; `analyze_parallel` has no guard
  (`C84_single_fail`).
* Positional arguments of `analyze` end up before the problem: `analyze_sobol(False)` and the like are always a TypeError
  (`C134_positional_fail`); a keyword `Y` is silently replaced (`C134_given`).
* `avail_approaches` walks the package without a prefix, so that `pkgutil` imports the bare name `morris`.  Where such a
  module exists it is executed, and if it is a package with modules, or raises, no `ProblemSpec` can be made
  (`C134_other_module_fail`, `C134_import_fail`).
* `evaluate_distributed` calls `self._wrap_func(func)` without `*args, **kwargs`, so additional arguments never reach the
  model (`C116_arguments_fail`); the default `servers=None` is always a TypeError (`C116_servers_fail`).
* An output name given twice has one entry in the analysis, and `to_df` returns fewer tables than there are outputs
  (`C117_repeated_fail`).  An `analyze` that raises at output k leaves an analysis of the first k outputs, which `to_df`
  shows without complaint (`C117_interrupted_fail`).

### Command line
* `salib sample saltelli` refuses `--seed`, which `examples/sobol/sobol.sh` 4-11 uses: the example ends with a message of the
  parser (`C137_saltelli_seed_fail`).  A value starting with a dash, `-1e-3` included, has to be written with `=`
  (`C137_dash`).  `salib sample latin -h` shows the help of `sample`, not of the method (`C137_help`).
* The Sobol sampler drops `--seed` and `--skip-values`, `hdmr` and `enhanced_hdmr` drop `--seed` (`C96_seed_fail`).
* `--local` of the Morris sampler (required) and `--scaled` of the Morris analysis have `type=bool`: any text but the empty
  one is true, also `False` (`C96_bool_fail`).
* `pawn` without `-S` is called with `S=None`, `rsa` without `-b`/`-t` with `bins=None`/`target=None` (`C96_none_fail`).
* The default number of resamples is 10 for delta and 1000 for dgsm and Morris, 100 when called from Python; `ff` computes
  interactions by default only on the command line (`changedDefaults`).
* `discrepancy`, `pawn`, `rbd_fast` and `rsa` read the inputs without `ndmin=2`, so a one-column file gives a vector
  (`C96_data`).  The `ff` sampler requires `-n` and does not use it.
* Samples are written with 9 significant digits unless `--precision` is given.  Values of a parameter with narrow bounds far
  from 0 become equal (1000000000 and 1000000002: all Morris effects 0, `C124_lost`), and a value at a bound such as 1/3 is
  read outside the bounds (`C124_bounds_fail`); 17 digits would lose nothing (`C124_lossless`, `C124_precision_fail`).
  `--delimiter .` or a negative precision is not rejected by the parser (`C124_arguments_fail`).

### Test functions
* `lake_problem.evaluate` hands one row of five values to `evaluate_lake`, which takes the number of steps from it: five
  steps of five lakes are simulated, and the counts are divided by `nvars`.  With the default 100 the reliability is at
  most 1/4, also when no state crosses the threshold, and the inertia is 0 or 1/100 (`C93_reliability_fails`).
* `oakley2004.py` (337-355) and `tests/test_test_functions.py` (187-205) list analytic first-order indices.  They are those
  of inputs with standard deviation 1.  The problem stated in both places has `bounds` `[0.0, 0.835]` with `norm`, that is
  standard deviation 0.835; there the indices are 0.1552 instead of 0.1357 for x12, 0.1409 instead of 0.1228 for x15, and
  they add up to 0.80 instead of 0.71 (C132).
