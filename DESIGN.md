# Formal model of pyPDP (dwoiwode/py-pdp-partitioner) in Lean 4

Source read as text from `/repo`; nothing was built or run. The tie between model and code is the
citation on each definition (`file:lines`).

## Layout

* `lean/Verif/Model/*.lean`  – executable model, one file per source module; every definition cites the code.
* `lean/Verif/Spec/*.lean`   – small specifications that do not mention the model.
* `lean/Verif/Lemmas/*.lean` – helper lemmas.
* `lean/Verif/Props/*.lean`  – the property theorems `Cnn_…`, with non-vacuity examples next to them.
* `properties.jsonl` – the English properties; `MANIFEST.json` – property → theorem map;
  `seeded/LOG.jsonl` – record of mutation experiments.

### How far to trust `seeded/LOG.jsonl`

For each seeded fault the theorems that no longer prove are replaced by `sorry`, file by file, until the edited model builds; `failed` lists them and
`dependent_property_theorems` the property theorems that then rest on `sorry`. The script that did this located errors in a file after it had already shortened it.
If one theorem had several errors, a later declaration of the same file that was fine could be counted as failed, and with it property theorems that depend on it.
So "caught" always means that some theorem failed, but that the theorem of the claim named in `breaks` failed may be wrong. A run could also stop early for the same reason.
The script is corrected, but only the last 5 experiments were repeated with it (in all of them the theorem of the claim does fail). The field `attribution` says where an entry stands:

* `rechecked`: the lists come from the corrected script.
* `not rechecked, may name too many theorems`: the lists come from the old script and have more than one theorem.
* `run stopped early, failure of the claim not checked`: some theorem failed, nothing is known about the one of the claim.
* no such field: only one theorem failed, so the list is not affected.

## Modelling conventions

* Exceptions are values (`Except PyErr`), one constructor per Python exception class. `PyErr.nan` stands for
  "numpy yields nan/inf with a RuntimeWarning instead of a number". Where the Python state survives an exception
  (samplers), the model returns the state reached together with the optional error.
* Numbers: a type `K` with a linear ordered field structure where the code only uses + - * / and comparisons
  (so the theorems cover `ℚ`, `ℝ`); `ℝ` where the code uses exp/log/sqrt/sin/cos/normal distribution. Floating-point
  rounding, overflow and NaN propagation are **not** modelled except where a definition says so; `Model/Machine` repeats scaling and
  the decision tree for an arbitrary arithmetic (C133, C134), `Model/MachineBest` the incumbents (C135), `Model/Rounding` averages and
  losses with correctly rounded operations (C138, C139), `Model/RoundedRanges` axis values (C140), `Model/RoundedImplied` implied spaces (C141), `Model/RoundedMachine` the decision tree (C142), `Spec/Double` the grid size (C136).
* numpy arrays are lists (of lists …) in C order, `repeat/reshape/transpose/meshgrid/linspace` are modelled on the
  flat row-major layout; a wrong shape is a `ValueError`. Lists are values: two arrays never share memory, except in `Model/Memory`
  (C151, C152), where an array is a list of positions in a buffer.
* Hyperparameters carry name and kind (float, integer, categorical, ordinal, constant); a config space is the list
  returned by `list(cs.values())`, vector index = list position (ConfigSpace contract).
* External libraries are parameters: the random draws of `ConfigSpace.sample_configuration`, `random.shuffle`,
  `numpy.random.Generator`, the surrogate's `fit`/`predict`, the objective function, the file system contents, md5.
  For `GaussianProcessSurrogate` the formulas of scikit-learn's `StandardScaler` and `GaussianProcessRegressor` are modelled
  (`Model/Gp`); the likelihood optimiser is a parameter (`choose`) that may return any kernel.
  What a theorem assumes of them is visible in its hypotheses. One documented library quirk is part of the model because the
  code itself relies on it (`bayesian_optimization.py:63`): `sample_configuration(1)` returns a bare configuration,
  not a list.

## Plan per property

| id | what is modelled | how proved |
|----|------------------|------------|
| C01–C03 | `scale_float`, `unscale_float` over ℝ incl. log branch, clamping, lookup errors | field algebra, monotonicity of exp/log |
| C04 | `unscale` on 1/2/3-d arrays, float and int dtype, per-column loop | column lemma for the fold over hyperparameters |
| C05, C06 | selection functions with str/object/foreign items | induction on the selection |
| C07 | linspace / logspace rows | index algebra |
| C08 | heap of random states, holders with copied or shared state, interleaved ops | simulation by induction over the history |
| C09 | pairwise distances over ℝ, `np.median` of the sorted non-zero ones | counting lemmas on sorted lists, permutation invariance |
| C10, C11 | `config_space_nd`, `__call__` with legality check | induction, injectivity of decimal numerals |
| C12–C16 | the five synthetic functions over ℝ, any dimension | inequalities, concavity of log∘sin for C15 |
| C17, C18 | `pd_integral` | fundamental theorem of calculus, induction over selected axes |
| C19–C32 | sampler state machines (base `sample`, Random, Grid, BO, cache file) with failing objectives | invariants by induction over histories; concrete counterexamples where the code violates the property |
| C33 | MMD over ℝ with RBF kernel | sums over index sets |
| C34, C35, C38, C39 | surrogate call dispatch, argmax/argmin as Python `max`/`min` | list induction |
| C36, C37 | EI / PI over ℝ with the Gaussian measure of Mathlib | integration |
| C40–C48 | ICE / PDP on flat arrays, caching state machine | index algebra, induction over histories |
| C49–C62 | decision tree partitioner: conditions, regions (three parallel arrays), best split scan, work stack | refinement of the stack loop to a recursive tree; inductions on the tree |
| C63–C65, C82 | NLL over ℝ, delta, region PDP, mean confidence | algebra, convexity, Cauchy–Schwarz |
| C66–C69 | random forest with the random draws as parameters | on top of the tree theorems |
| C70, C75, C98 | figure grid, `adjust_lightness` with the `colorsys` conversions | arithmetic, case analysis over the hue sectors |
| C71–C74, C83–C96 | every plot method as a state transformer on an axis (labels, limits, scales, list of shapes) | symbolic execution of the monad, on top of the ICE / PDP / tree theorems |
| C76 | `unscale` on mixed spaces | as C04 |
| C77–C81 | splitting of sample calls, input types of acquisition functions, `surrogate_score`, reset of ICE / PDP objects | inductions over histories; counterexamples |
| C97 | the synthetic functions as the published formulas (sums over `Fin d`) | rewriting |
| C99 | Gaussian process surrogate: standardised data, kernel matrix plus `alpha`, posterior mean and variance | linear algebra; Schoenberg's theorem for the Matérn kernel |
| C100 | the README workflow (fit, ICE, PDP, tree, incumbent region) | composition of the theorems above |
| C101 | Bayesian optimisation sampler with the Gaussian process surrogate and the acquisition functions of the package | invariant over histories on top of C19–C32 and C99 |
| C102 | examples/main.py | composition: C10, C16–C21, C63, C99–C101 |
| C103 | the incumbent region of a partitioned forest and its mean confidence | pigeonhole over votes, on top of C58, C66, C69 |
| C104 | one replication of `generate_data_trees` of examples/main_random_forest.py | composition as C102, with C66, C69, C103 |
| C105 | one replication of `figure_6_table_1_data_generation` of examples/main_paper.py | composition as C102, with C33, C59, C63; the same tree is partitioned repeatedly |
| C106 | examples/main_2d_pdp.py `styblinski_tang_3d`: figures and files | composition of C95, C83, C84, C86 with C100, C101; finding: the figure of the means is overwritten by that of the standard deviations (same file name) |
| C107 | examples/main_presentation.py `algorithm_walkthrough`: figures, then TypeError | composition of C73, C85, C86, C87, C89 with C100, C101; finding: `ax.annotate` without its position, for all inputs |
| C108 | blackbox_functions/hpo_bench.py | program of calls over a benchmark with its own random state; contract of HPOBench: an integer `rng` seeds a new generator |
| C109 | sampler/bayesian_optimization.py: `acq_func.update` against `sample` | invariant over programs of calls; finding: the incumbent value of the acquisition function is one point old between calls |
| C110 | examples/main_presentation.py `bo_introduction` | composition of C73, C85, C86, C92 with C99, C101, one lemma per round; the plotted surrogate equals the sampler's own |
| C111–C113 | log files of the example scripts as lists of cells; `read_csv` (type of a column), `groupby` and the functions that read them back | lemma for a dictionary of groups, one for files with several headers; finding: the generating functions append a header with every call, which makes every column textual and reading fail |
| C114 | `visualize_bad_nll` of examples/main_paper.py | C105's lemmas per replication, invariant of the loop, C72 and C73 for the axes; findings: displaced ground truth, percentage of accumulated sums |
| C115 | examples/main_meta_pdp.py | C101 and C63 per repetition, induction over the calls for the shared cache file, C86 and C94 for the images; finding: all kernels share the points of the first |
| C116 | `figure_1_3`, `figure_2`, `figure_4` of examples/main_paper.py | C29/C30 lemmas for the single split, C86, C73, C83 and C84 for the axes; finding: `left_region` is the region above the threshold |
| C117 | `plot_sampling_bias` of examples/main_sampler_analysis.py | C28, C29, C33, C99, C101 for what each sampler evaluates, C86 and C73 for the axes; the order of the arguments of `pd_integral` does not matter; findings: one sampler, no repetition, one dimension |
| C118 | `svm`, `rf` of examples/main_hpo_bench.py | C108 for the benchmark, C101 for the evaluated points, C99 for the surrogate, C85, C86, C94 for the images; finding: `initial_points` is not passed |
| C119 | `ICE` as a Python sequence, `ICECurve.__eq__` | the iteration protocol over `__getitem__` (C47, C44); the generated `__eq__` of a dataclass without fields |
| C120 | labels of the plots: the models of the plots once more, with the labelled artists of an axis | that the labels are the only difference (`Lemmas/LegendErase`) brings in C93 and C96; findings: the legend of `plot_full_bayesian` belongs to one of its two axes, labels of factors are rounded |
| C121 | progress bar of `sample`: the sampling loops once more, with the calls `update`/`close` of the bar | that the bar changes nothing is an erasure lemma; every loop updates it after each point (`Pointwise`), the initial points of Bayesian optimisation in one step (`jump_facts`); finding: an objective without `__name__` |
| C122, C123 | decision tree partitioner (as C49–C62) | a relation between lists of curves which no step of the tree can tell apart (`Indist`), for permutations and for scaled variances; the greedy tree of C56–C58 respects it |
| C124, C125 | sampler with Gaussian process and acquisition functions (as C101) | two runs side by side (`SameRun`), on top of C29–C32: a fit sees the same standardised data, the acquisition functions order the candidates alike (equal targets need C126); C123 for the tree |
| C126 | acquisition functions over ℝ (as C36–C38) | the standardised improvement lies above its tangents |
| C127–C129 | ICE and PDP (as C40–C46), `pd_integral` (as C17) | the arrays of a PDP in closed form (`pdp_values`); the strong law of large numbers of Mathlib for C128; C127 and C18 for C129 |
| C130 | tree (as C50–C61), regions (as C65, C82) | analysis of variance over the leaves, with C50 |
| C131–C132 | ICE and PDP (as C127) | the closed forms `ice_values`, `pdp_values` |
| C133–C134 | `Model/Machine`: scaling and the tree over any arithmetic | laws of comparison only (`Spec.Comparable`); the exact models are the instance `exactMachine` (`C133_exact`, `C134_exact`) |
| C135 | `Model/MachineBest`: numpy's `argmin`/`argmax` and the builtin `max`/`min` over machine numbers | as above; `C135_exact` |
| C136 | `Spec/Double`: numbers with 53 significant bits, rounding to nearest; `GridEnv.perAxis` is the computed number of steps | `Lemmas/Double`; exponent bounds of binary64 not modelled |
| C137 | `Model/IceDtype`: `_calculate` with the dtype of the samples (`DType` of C04) | reduction to C41 with the truncated grid |
| C138, C139 | `Model/Rounding`: averages and loss with a rounding of every operation and numpy's own order of additions (`AddedUp`: any order and grouping) | error of a sum by induction on the additions; `Lemmas/Double` |
| C140 | `Model/RoundedRanges`: `np.linspace` with a rounding of every operation, computed logarithm and power as parameters, correctly rounded in `Spec/RoundedRanges` | monotonicity of rounding; ln 2 and ln 1.25 to 19 digits from their series (`Lemmas/Log10`) |
| C141 | `Model/RoundedImplied`: `unscale` of a row and `implied_config_space` with a rounding of every operation, ConfigSpace's integer check with tolerance | monotonicity of rounding; `Lemmas/Log10` |
| C142 | `Model/RoundedMachine`: `Model/Machine` with rounded operations | C134 and the monotonicity of rounded unscaling |
| C143 | `Spec/IntegerVectors`: ConfigSpace's number of an integer value | C58 with a general condition on sides; linear inequalities |
| C144 | `Model/SyntheticClasses`: the classes with their defaults and constructors | the space is a cube with axes x1..xd; C10-C16 composed |
| C145 | `Model/ConditionText`: `__str__`; the text of a number is a parameter | C60; texts split at spaces |
| C146 | `Model/MachineCondition`: the constructor of a condition in machine arithmetic | errors of single operations added up; one computed example |
| C147 | the volume of a space as the product of the lengths of its axes | induction over the grown tree: a threshold lies strictly inside the box of the region that it splits |
| C148 | `callObjective` of `Model/Main` with a sampler over another space | samplers depend on the objective only through its calls; C20 for two objectives that differ where the call raises |
| C149 | `gridPointsF` (`Model/RoundedGrid`), `splitVals` of `roundedMachine` | relative errors of the two roundings; neighbours differ by more than both errors up to 2^51 points |
| C150 | `regionLossF`, `dtPartitionM`, `calcBestSplitM` of `roundedMachine` | error of mean, difference, square and sum; the leaves share out curves of the root, so C55 bounds their exact losses; ties to even for four times 0.1 |
| C151 | `iceCalcM` (`iceArgM`, `iceStoreM`) | arrays are positions in buffers; the memory before is a prefix of the memory after; with new arrays from the surrogate the values are those of `iceCalc` |
| C152 | `curveM`, `rootM`, `childM` | rows of an array have disjoint positions; children live in new buffers |
| C153 | `yIce`, `yPdp`, `vPdp` | closed forms of C131; setting two groups of hyperparameters at once or one after the other is the same |
| C154 | `yPdp`, `vPdp`, `dtPartition`, `regionLoss` | k copies scale all sums by k; the comparison of losses and the check of the minimal number of points are unaffected |
| C155 | `rfPartition`, `rfIncumbentRegion`, `dtPartition` | every tree is the decision tree up to the order of the curves (C66 and the invariance lemma of C63); a sample shares the incumbent's leaf in all trees or in none |
| C156 | `dtPartition`, `dtIncumbentRegion`, `regionImplied` | C61 and C57 for the nesting, C59 for the boxes; a split takes at least k curves away from every part |
| C157 | `pdpReadY`, `pdpReadV` | the arrays of C128; Hoeffding's inequality at one grid point (Mathlib), a union bound over the grid; the influence of one sample directly from the mean |
| C158 | `analyzeOpenmlTasks` | induction over the lines and over the tasks of a line |
| C159 | `maximumMeanDiscrepancy`, `samplerMmd` | the median scales with the distances; the diagonal of the cross terms |
| C160 | `dtInit`, `dtPartition`, `dtIncumbentRegion` | bound on the change of the cost of a split; induction over the greedily grown tree |
| C161 | `dtPartitionM`, `dtIncumbentRegionM` of `roundedMachine` against `dtPartition`, `dtIncumbentRegion` | C150's error of a split and C149's of a threshold; the winner of the loop is the first candidate of the exact minimum; error of interpolation on both kinds of axes |
| C162 | `getAx`, the functions with `S` at the end of Model/Session | methods of an axis compose (`onAx_bind`), so every function is `get_ax` followed by its one-axis model; new axes are fresh numbers |
| C163 | `dtInit`, `dtPartition`, `dtIncumbentRegion` on two spaces | candidates of corresponding positions correspond (`cand_matches`), the best one is unique, induction over the greedy tree; `interpolate` is strictly monotone for the incumbent |
| C164 | `dtInit`, `dtPartition` with two settings | a candidate stays a candidate at the same cost (`cand_freer`); counterexamples of depth 2 by evaluation |
| C165 | `dtInit`, `dtPartition` on two grids | the summand of the grid point cancels in the loss (`curveLoss_additive`); induction over both greedy trees |
| C166 | `rfInit`, `rfPartition`, `rfIncumbentRegion` for two surrogates | a draw determines the hyperparameters and the root of a tree (`possible_unique`, `roots_related`); `Indist.greedy` and `near_greedy` per tree; equal conditions give equal votes |
| C167 | `dtInit`, `dtPartition`, `dtIncumbentRegion`, `pdpInit` in two config spaces | dropping entries commutes with setting the selected ones (`keptEntries_atPoint`) and keeps the features that may be split (`keptEntries_getElem?`); induction over both greedy trees |
| C168 | `dtInit`, `dtPartition`, `pdpInit` in two config spaces | a candidate of the one region corresponds to a candidate of the other with the same cost, on a turned axis with the sides exchanged (`turned_parts`, `turned_cost`); induction over the clear tree, leaves up to a permutation |
| C169 | `dtInit`, `dtPartition` | a region has loss 0 exactly if its curves have equal variances (`curveLoss_eq_zero`); the separating threshold costs 0, so the chosen one does, and both its parts lie within one group; without groups every cost is 0 and the first candidate wins |
| C170 | `randomSampler`, `incumbent` | the calls draw `X 0`, `X 1`, … in turn (`randomSearch_run`), the incumbent reaches a value iff one of them does; independence |
| C171 | `gridSampler`, `incumbent` | every position is within half a step of a grid point (`nearest_point`), and all grid points have been evaluated (C136) |
| C172 | `yPdp`, `vPdp` | the values are averages over the samples (`pdp_values`); the square of an average is at most the average of the squares; Chebyshev |
| C173 | `getOptimum`, `getIncumbent`, `boSample` | the result is the first best of the draws (C39, C35, C29), the incumbent never gets worse (C21); independence as for C170 |
| C174 | `negativeLogLikelihood`, `deltaNll` | closed form from C63; `log x ≤ x - 1`; factor `a` adds `log |a|` to every term; `|s + log a|` takes every value |
| C175 | `GpSurrogate.fit`, `GpSurrogate.predict`, `vPdp` | `G⁻¹ k` minimises the quadratic form of the error (G positive definite); a single weight gives the bound by one point; `(1 + t) exp(-t) ≥ 1 - t²/2`; weights 0 for new points |
| C176 | `GpSurrogate.predict`, `yPdp`, `vPdp` | the error of fixed weights along a segment is a nowhere negative parabola, so its discriminant bounds the change; weights of a difference are small because of the 1e-8; Minkowski over the samples |
| C177 | `lcbValue`, `eiValue`, `piValue`, `getOptimum`, `gpAcq` | tangents of the standardised improvement (C126); density at most 1/√(2π); C39 and C176 |
| C178 | `GpSurrogate.fit`, `GpSurrogate.predict`, `yPdp`, `vPdp` | the weights `G⁻¹ k` depend on the points only; `M (M + α)⁻¹` does not enlarge vectors |
| C179 | `GpSurrogate.fit`, `GpSurrogate.predict`, `yPdp`, `vPdp`, `getOptimum`, `gpAcq` | Cauchy–Schwarz in the space of the kernel, from a quadratic form that is non-negative for every multiple of the objective; the weights of C175 |
| C180 | `boSample`, `gpSampler`, `gpFitStep`, `gpAcq`, `incumbent` | C179 and C175 at the acquired point (C101); pigeonhole; `e^{-√v}` has a vertical tangent at 0, so the Matérn matrix is strictly positive definite |
| C181 | `eiValue`, `gpAcq`, `getOptimum`, `boSample`, `incumbent` | expected improvement is `σ · gain ((η - m - ε) / σ)`, gain is monotone with slope at most 1; C179 at the candidates; all but `M ^ d` acquired points repeat a cell, the improvements of the run telescope |
| C182 | `piValue`, `gpAcq`, `getOptimum`, `boSample`, `incumbent` | the normal distribution function is strictly increasing, so the chosen point has the largest standardised improvement; rest as C181 |
| C183 | `GpSurrogate.fit`, `GpSurrogate.predict`, `lcbValue`, `gpAcq`, `getOptimum` | C178: means are linear in the values, standard deviations proportional to the spread; the spread is a seminorm up to constants |
| C184 | `Model/MachineForest`: `rfPartitionM`, `rfIncumbentRegionM` of `roundedMachine` against `rfPartition`, `rfIncumbentRegion` | C161 for every tree; every sample is in the same regions; `C184_exact` |
| C185 | `maximumMeanDiscrepancy`, `medianDistanceBetweenPoints` for all matchings and for random samples | the RBF kernel is an inner product of features whose distance is at most `min (√2) (distance / l)`; strong law for the cells of the unit cube; few near pairs keep the median distance up; `C185_transport`, `C185_cells`, `C185_random` |
| C186 | `dtInit`, `dtPartition`, `regionLoss` for random samples | `Spec.PopulationTree` (greedy rule on integrals); strong law for probability, mean and square of every region; finitely many candidates per region, so the best one of the distribution is eventually the one of the samples; `C186_tree` |
| C187 | `regionPdp`, `meanConfidence`, `negativeLogLikelihood`, `deltaNll` of the leaves for random samples | strong law for the mean in a region (`region_mean`), the leaves of C186, `C174_formula`; `C187_leaves`, `C187_likelihood` |
| C188 | `dtInit`, `dtPartition` for `n` random samples | the proof of C186 for any filter of numbers of samples and outcomes that obeys the law of large numbers (`SampleLaw`, `law_core`, `law_tree`); sets whose complements have small probabilities are such a filter (`tailFilter`), with Hoeffding's inequality (`exp_deviation`) or Chebyshev's (`inverse_deviation`); `C188_exponential`, `C188_moments` |
| C189 | `dtInit`, `dtPartition` for random samples | without ties a distribution has a tree (`best_exists`: the smallest candidate in the order of costs, hyperparameters and thresholds; `tree_exists`), C186 and C188 for it; `C189_settles`, `C189_rate` |
| C190 | `rfPartition`, `rfIncumbentRegion` for random draws | the draws are a random sample of the empirical distribution (`drawn_sample`), the losses of which are those of the samples (`empirical_loss`); a tree without ties is the tree of that distribution (`clear_population`), the law of large numbers of C188 does the rest; `C190_forest`, `C190_settles`, `uniform_exists` |
| C191 | `rfPartition`, `rfIncumbentRegion` for many trees | the votes of C69 are those of the single draws (`votes_draws`), their shares obey Hoeffding's inequality (`draw_law`); `C191_majority`, `C191_default`, `C191_every_tree`, `C191_settles`, `uniform_trees` |
| C192 | `yPdp`, `yIce` for random samples | central limit theorem at a grid point, Slutsky's theorem for the standard deviation of the ICE curves (`normal_limit`, `spread_limit`, `interval_limit`); `C192_normal`, `C192_interval` |
| C193 | `dtPartition`, `regionLoss`, `meanConfidence`, `negativeLogLikelihood`, `deltaNll` for fine grids | averages over the grid are integrals of step functions that converge on the cube (`cells_limit`, `grid_average`), so finitely many comparisons of costs settle (`cube_core`, `cube_leaves`); `C193_tree`, `C193_likelihood` |
| C194 | `dtPartition`, `regionLoss`, `meanConfidence` for a given grid | every point of the cube is within 1 / g of the grid point of its cell (`grid_error`), the integrand of the loss is Lipschitz (`loss_lipschitz`), so costs keep their order when the margin exceeds twice the error (`gap_core`); `C194_tree`, `C194_margin` |
| C195 | `pdpPlotValues`, `pdpPlotConfidences`, `plotFunction` between the grid points | a drawn line is straight in the screen coordinate, which is affine in the normalised value (`screen_interpolate`, `line_points`); error of a chord (`chord_lipschitz`, `chord_smooth`); `C195_pdp`, `C195_confidence`, `C195_function`. That matplotlib joins points by straight pieces on the screen is assumed (`OnLine`) |
| C196 | `curveIncumbent` on `pdpCurve` against the partial dependence between the grid points | the mark is the first smallest grid value (C74); a chord between grid values is not below it and within the bounds of C195 of the curve (`grid_chord`); two axes: the nearest grid point (`nearest_step` of C171); a neighbouring grid point would be better if the mark were a step off the bottom |
| C197 | `pdpPlotValues`, `curveIncumbent`, `pdpPlotConfidences` with `GpSurrogate.fit` against the objective | an average of predictions is at most as many root mean variances off as the predictions (`dependence_error`), added to the bounds of C195 and C196; for the default surrogate C179 gives B and C176 the rates, since setting one hyperparameter moves the standardised vector along one axis (`standardised_set`) |
| C198 | `dtPartition`, `regionPdp`, `regionPlotValues`, `regionPlotConfidences` against `iceInit` and `pdpInit` of the leaf's samples | induction on the greedy tree: the curves of every node are those of a sublist of the samples (`greedy_parts`), and two regions with the same curves have the same arrays; then C65 for a partitioner of the leaf's samples |
| C199 | `regionPlotValues`, `regionPlotConfidences` of the leaves of `dtPartition` against the objective | C198 turns the plots of a leaf into those of a PDP of its samples; C197 for that PDP; the root of a mean of squares is at most a common bound (`deviationAt_le`) |
| C200 | `icePlot` and `pdpPlotValues` as drawn | C88 and C83 for the points; the points over a value determine the two grid points around it up to kinks (`on_grid_line`, `chord_unique`), so the chords of the means are the means of the chords; C195's bound for every single line |
| C201 | `pdpInit` and `pdpPlotValues` for random samples | C83 for the points of the line and C200's `on_grid_line` between them; Hoeffding's inequality (the deviations of C157) at every grid point and a union bound; the surrogate error by integrating the pointwise bound |
| C202 | `icePlot` after `setCentered` | C88's argument with the centered arrays (`C202_points`); the shift commutes with the chords; C200's bound for the lines and the coverage at the lower bound |
| C203 | `pdpInit` and `pdpPlotConfidences` for random samples | C84 for the points of the lines and C200's `on_grid_line`; the mean of the standard deviations is at most the root of the mean variance (C197's `dependence_error`); Hoeffding's inequality for the blackbox function at the grid points |
| C204 | `pdpInit`, `pdpCurve` and `curveIncumbent` for random samples | C196's argument: the marked value is a grid point with the smallest average (`incumbent_on_grid`); C201's deviations at the grid points; chords of the expectation between grid points |
| C205 | the same for two hyperparameters | C196's argument for two axes (`incumbent_on_grid_two`), the deviations of C157 at all n² grid points, the nearest grid point |
| C206 | `plotFunction` and `surrogateConfidences` of one hyperparameter on equal axes | the points of both from C73 and C85, compared piece by piece (`on_grid_line`, `chord_unique`); a line goes through its points (`on_grid_point`) |
| C207 | `plotFunction`, `surrogateMeans` and `surrogateConfidences` on equal axes | C73 and C85 give the same axes (`same_axis`); lines compared piece by piece as in C206, meshes cell by cell |
| C208 | `plotFunction`, `surrogateMeans` and `surrogateConfidences` one after the other on one axis | C206 and C207 with the axis left by the calls before (`axis_again`); the lines of the first two do not depend on the axis (`blackbox_line`, `means_line`) |

## What is modelled

| source | model |
|--------|-------|
| `utils/utils.py` (all functions) | `Model/Utils`, `Model/Seeding`, `Model/Progress` (`ProgressDummy`) |
| `utils/plotting.py` (not `get_color`: a lookup of matplotlib) | `Model/Plotting`; `get_ax`, `get_random_color` and the argument `ax` of all plotting functions: `Model/Session` |
| `utils/advanced_plots.py` | `Model/AdvancedPlots` |
| labels and legends of the above plots and of all `plot` methods of the package (not: their position and colours) | `Model/Legend` |
| `blackbox_functions/__init__.py`, `synthetic_functions.py` | `Model/Blackbox` |
| `sampler/__init__.py`, `random_sampler.py`, `grid_sampler.py`, `bayesian_optimization.py` | `Model/Sampler`, `Model/Bayes`, `Model/MMD`, `Model/Plots`, `Model/Progress` (progress bar) |
| `sampler/acquisition_function.py` | `Model/Acquisition`, `Model/AcquisitionPlot`, `Model/Surrogate` |
| `surrogate_models/__init__.py`, `sklearn_surrogates.py` | `Model/Surrogate`, `Model/Gp`, `Model/BoGp`, `Model/Plots` |
| `algorithms/__init__.py`, `ice.py`, `pdp.py` | `Model/Ice`, `Model/Pdp`, `Model/IceSeq`, `Model/Plots`, shared memory `Model/Memory` |
| `blackbox_functions/hpo_bench.py` | `Model/HpoBench` |
| `examples/main.py` | `Model/Main`, its figure `Model/MainFigure` |
| `examples/main_random_forest.py`: `generate_data_trees` | `Model/MainForest` |
| `examples/main_paper.py`: `figure_6_table_1_data_generation` | `Model/MainPaper` |
| `examples/main_random_forest.py`: `plot_tree_data`; `examples/main_paper.py`: `figure_6_drawing`, `table_1_drawing` | `Model/Tables` |
| `examples/main_paper.py`: `visualize_bad_nll` | `Model/BadNll` |
| `examples/main_meta_pdp.py` (all functions) | `Model/MainMeta` |
| `examples/main_paper.py`: `figure_1_3`, `figure_2`, `figure_4` (not: titles, legends, sizes) | `Model/PaperFigures` |
| `examples/main_sampler_analysis.py`: `plot_sampling_bias` for the default `f_class` (not: titles, shared limits, sizes, progress bar) | `Model/SamplerAnalysis` |
| `examples/main_hpo_bench.py`: `svm`, `rf` (not: titles, layout) | `Model/MainHpo` |
| `examples/main_hpo_bench.py`: `analyze_openml_tasks` (openml's answer is a parameter) | `Model/OpenmlTasks` |
| `examples/main_2d_pdp.py`: `styblinski_tang_3d` | `Model/Main2D` |
| `examples/main_presentation.py`: `save_yielded_plots`, `algorithm_walkthrough` | `Model/MainPresentation` |
| `examples/main_presentation.py`: `bo_introduction` | `Model/MainIntroduction` |
| `algorithms/partitioner/*.py` | `Model/Partitioner`, `Model/Machine`, `Model/Likelihood`, `Model/Forest`, `Model/MachineForest`, `Model/Plots` |

Not modelled: the text of log and error messages and of `__str__`/`__repr__` except the split condition (C60, C145), the labels of plots (C120) and of progress bars (C121); titles,
line widths and legends of the plots in the examples; creation and deletion of figures; its examples other than those listed
in the table above. (The tests of the repository: see "The model against the tests of the repository".)

Not modelled about the libraries: outside `Model/Machine`, `Model/MachineForest`, `Model/MachineBest`, `Model/Rounding`, `Model/RoundedRanges`, `Model/RoundedImplied`, `Model/RoundedMachine`, `Model/MachineCondition` and `Model/RoundedGrid`, floating-point rounding, overflow and NaN propagation (in particular `math.exp` on a log axis
for huge arguments); conditional hyperparameters and inactive (NaN) entries of vectors; quantisation and default values
of hyperparameters; weights of categorical choices; arrays of shape `(n, 0, d)`; concurrency. A hyperparameter of kind
integer is normalised by this package like a float one; ConfigSpace's own vector encoding of integers is slightly different, which is
why theorems about configurations *and* vectors ask for the connection they need as a hypothesis. The encoding itself is stated in
`Spec/IntegerVectors` (as read from ConfigSpace 0.7.1, the pinned version) and its consequences are C143.

## Properties that are false of the code

Each has a theorem named `…_counterexample` (a universally quantified failure where possible, a concrete witness otherwise) and the true
part as `…_partial`.

| id | what goes wrong |
|----|-----------------|
| C02 | `scale_float` of a negative value on a log axis is not a number (math domain error) |
| C04, C76 | `unscale` cannot translate categorical columns of 1-d and 3-d or float arrays; numerical columns of integer arrays are truncated |
| C18 | a hyperparameter selected twice is integrated twice by `pd_integral` |
| C20 | `GridSampler` appends a configuration before evaluating it: a failing objective leaves lists of different lengths |
| C22, C24 | a partially used cache is dropped (exactly when: `C22_random_exact`); saving then shrinks the file (to exactly how many points: `C24_exact`) |
| C25 | the cache key ignores `minimize_objective`, the options of the surrogate (e.g. its kernel) and the body of the function |
| C26 | `RandomSampler.sample(1)` indexes a bare configuration |
| C28 | the left-over grid may consist of used points only (`C28_exact`: exactly which calls fail) |
| C31 | the test that should avoid refits compares hash objects by identity and never matches |
| C34 | `SurrogateModel.__call__` on an array unpacks the means instead of (means, stds) |
| C35, C39, C48 | `sample_configuration(1)` returns a bare configuration: incumbent, optimum and samples of one draw fail |
| C59 | `implied_config_space` turns integer hyperparameters into float ranges |
| C62 | `DecisionTreePartitioner.from_ICE` drops `centered` |
| C63 | `negative_log_likelihood` passes only the first selected hyperparameter to `pd_integral` |
| C67 | `RandomForestPartitioner.partition()` without `sample_size` compares `None > 0` |
| C68 | the forest ignores its own `num_splits_per_axis` and `min_points_per_node` |
| C71 | axis labels cannot tell a hyperparameter called "Prediction" from the prediction; three or more hyperparameters are never refused |
| C72 | factors below 0.2 give an opacity above 1; an iterator of factors is used up by the test for 0 |
| C77 | initial design is redrawn when the first call was smaller than `initial_points`; the exact number of random points for every sequence of successful calls is `C77_exact` |
| C79 | `surrogate_score` passes a keyword `predict` does not have |
| C80, C81 | `reset` of an ICE does not update sizes; a PDP stores its three arrays separately. `C80_exact` and `C81_exact` state, for every history, what is read instead |
| C90, C91 | incumbent plots fail for integer selected hyperparameters; trees without a colour are left out |
| C92, C96 | the mark of the optimum is at the first hyperparameter / at height instead of abscissa; the name `x1` is hard-coded |
| C120 | `plot_full_bayesian` shows the legend of the acquisition axis only; 1.001 and 1.002 standard deviations have the same label; `plot_function` needs a `__name__` |
| C121 | `sample(show_progress=True)` raises an AttributeError for an objective without `__name__`; the bar is not closed when the objective raises |
| C103 | the incumbent region of a forest can be empty, also with the default overlap; its mean confidence is then nan |
| C109 | between calls of `sample` the acquisition function knows the best value of all points but the last; after initial points only, none |
| C114 | `visualize_bad_nll` adds the offset of the whole space to the ground truth of the region; its percentage is computed from accumulated sums |
| C115 | `main_meta_pdp` compares kernels on samplers with the same cache key: from the second call on the points acquired with the first kernel are replayed |
| C116 | `figure_4` names and colours the two regions the wrong way round: `leaves` lists the right child first, so `left_region` holds the curves with `x2` above the threshold; `figure_1_3` raises TypeError for a single sampler |
| C117 | `plot_sampling_bias` with a single sampler raises TypeError after all its evaluations (`axes.T` then has bare axes), without repetitions AttributeError (`arr_x` stays a list), in one dimension ValueError from `pd_integral()`. With the default 64 points in two dimensions the grid sampler evaluates the whole 8 x 8 grid in every repetition, so its repetitions differ in the order only. Not part of the model: `PDP.from_random_points` is called without a seed, so the image differs from run to run although `seed_offset` is fixed. |
| C118 | `svm` and `rf` define `initial_points = 12` and evaluate 80 + 12 points, but do not pass the number to the sampler: its default of 5 random points is used, the other 87 are chosen by the acquisition function. `svm` on a benchmark with three or more hyperparameters fails with AssertionError after all evaluations. The seed does not reach the samples of the one-dimensional array (C94). |
| C119 | `ICECurve` is a `@dataclass` whose class body annotates no field: any two curves compare equal, `c in ice` is true for every curve, and curves cannot be hashed. An IndexError raised while an ICE is calculated ends an iteration over it silently. |
| C136 | `GridSampler` on 5 hyperparameters with n = 3125 uses 6 steps instead of 5: `3125 ** (1 / 5)` is above 5 in floating point |
| C137 | `ICE` with an integer sample array: the grid is truncated to 0 and 1, the curves are flat |
| C139 | three identical curves with value 0.1: the PDP is above all of them by one rounding unit, the loss is positive |
| C140 | `plot_function` of a blackbox function with a logarithmic hyperparameter between 2^-10 and 2^10 raises: `np.logspace` starts below and ends above the bounds |
| C141 | `ICECurve.implied_config_space`: upper bound 0.10000000000000009 for a float between -1 and 0.1; ValueError for an integer between 1 and 128 on a logarithmic axis |
| C142 | `SplitCondition.is_satisfied` compares values in natural units, `filter_by_condition` compares the vector: for the middle grid point 1.05 of a float between 0.6 and 1.5 they disagree at the threshold 0.5, the curve and the configuration of a sample are in different leaves |
| C143 | `unscale_float` converts the numbers of integer hyperparameters with the bounds l and u, ConfigSpace wrote them with l - 0.49999 and u + 0.49999: thresholds and the points of plots are displaced by up to half a unit (except in the middle), and with four or more values a sample and its curve may be in different leaves |
| C145 | `SplitCondition(..., normalized_value=1, less_equal=True)`: the integer is no float, so the condition reads `x <= 1` and tests `x == 1` (in natural units) |
| C146 | `SplitCondition` keeps only the normalised value: between 0 and 49 the condition made from `value=1, less_equal=True` has the value 0.9999999999999999 and rejects the configuration x = 1 |
| C150 | with doubles the computed losses of the leaves can exceed that of the root: four curves with the variance 0.1 have no loss, three of them have one (the excess is at most `42 (n P)² B² 2⁻⁵²`) |
| C151 | `y_ice` is the array that the surrogate returned, and `y_ice -= y_start` (ice.py:225) overwrites it: a centered ICE alters a surrogate that returns an array of its own; a surrogate that reuses its output array alters earlier ICE objects |
| C164 | the tree is greedy: more thresholds, smaller regions or more hyperparameters to split on can make the leaves of a deeper tree worse (only the first split gets no worse) |
| C174 | `delta_nll` divides by the negative log-likelihood of the full region, whose zero depends on the units of the objective; in other units the same region has any other positive value (`C174_delta_any`) |
| C177 | expected improvement and probability of improvement are 0 at sigma = 0 although they tend to the improvement (or 1) there if the mean is better than the incumbent's value (`C177_jump`) |

Failures of the example scripts that are part of a proved statement: C106 (a figure overwritten), C107 (TypeError in the walkthrough), C111–C113
(log files of more than one call cannot be read back; a single column or `tau` gives an IndexError in `figure_6_drawing`).

Documentation that does not match the code although no property is violated: the doc string of `adjust_lightness` has lighter and
darker exchanged (C98). `examples/main.py:13` imports `utils.utils`, which is not a module of the package.

## The model against the tests of the repository

The sandbox cannot run the code, so the model is compared with what the authors expect of it. `Props/RepoTests` states the assertions of the tests that have fixed
expectations as theorems about the model, under the names of the tests. The other tests run a sampler and check properties of the results; here is the general theorem
that covers each.

| test | here |
|---|---|
| `test_grid_sampler.py` (all three) | `RepoTests.test_sample_2D_single_point`, `…_3x3_grid`, `…_3D_big_grid`; in general C27, C28 |
| `test_split_condition.py` (both) | `RepoTests.test_float_value`, `RepoTests.test_normalized_value`; in general C60, C145; with rounding C146 |
| `test_utils.py`: `test_unscale_categorical` | `RepoTests.test_unscale_categorical`; in general C04 |
| `test_utils.py`: `test_scale_float…`, `test_unscale_float…` | compare with ConfigSpace's own conversion, which is the specification in C01-C03 (`interpolate`) |
| `test_synthetic.py`: `TestConfigspaceND` | `RepoTests.test_same_bounds`, `…prefix`, `…different_bounds`, `…constants`; in general C10 |
| `test_synthetic.py`: `TestLevy`, `TestAckley` (minimum, random calls are positive) | C144 (every legal call; zero only at the minimiser) |
| `test_synthetic.py`: `tets_cross_in_tray` (misspelt, so it never runs) | it would fail: -2.06261 is correct to five places only, the assertions ask for seven; C15, C144 |
| `test_synthetic.py`: `test_styblinski_tang_1D`, `test_minima` | `RepoTests.test_minima`; in general C16, C144 |
| `test_synthetic.py`: `test_simple_integral_numerical`, `test_integral_1d`, `test_integral_2d_x2`, `test_integral_2d_x3` | `RepoTests` under the same names, the last three for all arguments; in general C17 |
| `test_ice.py`: `test_create_ice_1D_f_1D`, `test_create_ice_1D_f_2D`, `test_ice_2D_f_3D` | C40-C42, C149 (with rounding). `np.unique(..., axis=1)` in the last one counts columns, so it cannot see equal grid points |
| `test_ice.py`: `test_create_ice_centered`, `test_ice_curve_configspace`, `test_categorical_function` | C43, C47, C41 |
| `test_pdp.py` | C45, C43, C48. `np.diff(pdp.x_pdp)` is taken along the axis of length 1, so that assertion is empty |
| `test_DTNode.py` | C57 (every configuration, not only 1000), C59, C147 (`is_different` for every leaf if there are at least two) |
| `test_partitioner.py` | C50. `np.all(np.abs(...))` only says that no confidence is zero |
| `test_rf_partitioner.py` | C69, C103 |
| `test_neg_log_likelihood.py` | prints only; C63 |
| `test_mmd.py`, `test_acquisition_function.py` | the inequalities depend on the random draws and on fitted kernels and are not consequences of the code; C33, C36-C39 |
| `test_optimizers.py`, `test_seeds.py` | numbers of recorded points: C20, C21, C29; equal seeds: C48, `Model/Seeding`; how close the best value is and how long a call takes are not modelled |
| `tests/surrogates`, `test_plotting.py`, `test_hpo_bench.py` | lengths of the predictions: C79, C99; the plots have no assertions: C73, C83-C88; C108 |

## Trusted base

Lean's kernel; axioms `propext`, `Classical.choice`, `Quot.sound` only (checked with `#print axioms`); the reading of the
Python code reflected in the model; the library contracts listed above.
