{"id": "C01", "title": "scale_float / unscale_float are mutually inverse on the range", "statement": "For every numerical hyperparameter with lower < upper (and 0 < lower when log), unscale_float(scale_float(v)) = v for every v in [lower, upper], and scale_float(unscale_float(t)) = t for every t in [0, 1], linear and log alike.", "quantifier": "all hyperparameters, all bounds, all values, both log settings", "why_tests_cant": "real-valued inputs; tests sample 1000 points of one range", "anchors": ["pyPDP/utils/utils.py:scale_float", "pyPDP/utils/utils.py:unscale_float"]}
{"id": "C02", "title": "scaling never leaves its target interval", "statement": "scale_float always returns a number in [0, 1] and unscale_float always returns a number in [lower, upper], also for inputs outside the range (values below lower give 0, above upper give 1; t<0 gives lower, t>1 gives upper).", "quantifier": "all hyperparameters, all (also out-of-range) inputs", "why_tests_cant": "unbounded real inputs", "anchors": ["pyPDP/utils/utils.py:scale_float", "pyPDP/utils/utils.py:unscale_float"]}
{"id": "C03", "title": "thresholding in normalised space equals thresholding in natural units", "statement": "scale_float and unscale_float preserve order: for v in [lower, upper] and t in [0,1], v <= unscale_float(t) exactly when scale_float(v) <= t. So a split stored as a normalised value selects the same configurations as the split value shown to the user.", "quantifier": "all hyperparameters, all values, all thresholds", "why_tests_cant": "infinitely many thresholds and values", "anchors": ["pyPDP/utils/utils.py:scale_float", "pyPDP/utils/utils.py:unscale_float", "pyPDP/algorithms/partitioner/decision_tree_partitioner.py:SplitCondition.value"]}
{"id": "C04", "title": "array unscaling agrees with scalar unscaling and keeps the shape", "statement": "For float arrays, unscale(x, cs) returns a new array of the same shape whose column i is unscale_float of column i for every numerical hyperparameter and entries in [0,1], for 1-, 2- and 3-dimensional input; in integer arrays over purely categorical spaces every code is mapped to its choice; TypeError is raised for constant/ordinal hyperparameters and for categorical columns of float arrays.", "quantifier": "all arrays of 1-3 dimensions, all config spaces of the named kinds", "why_tests_cant": "all shapes and contents", "anchors": ["pyPDP/utils/utils.py:unscale"]}
{"id": "C05", "title": "hyperparameter selection resolves names faithfully", "statement": "convert_hyperparameters and get_hyperparameters return exactly one hyperparameter per selected item, in the order given, resolving names through the config space; an unknown name raises KeyError, a foreign object raises TypeError; get_hyperparameters(None) is the whole space while convert_hyperparameters(None) raises TypeError; for every other selection the two functions agree.", "quantifier": "all config spaces and all selections", "why_tests_cant": "all lists of names/objects", "anchors": ["pyPDP/utils/utils.py:convert_hyperparameters", "pyPDP/utils/utils.py:get_hyperparameters"]}
{"id": "C06", "title": "get_selected_idx returns the array columns of the selected hyperparameters", "statement": "get_selected_idx returns, for each selected hyperparameter in order, the position of that hyperparameter in the config space; distinct hyperparameters get distinct columns; a hyperparameter unknown to the space raises KeyError.", "quantifier": "all config spaces with distinct names, all selections", "why_tests_cant": "all spaces and selections", "anchors": ["pyPDP/utils/utils.py:get_selected_idx"]}
{"id": "C07", "title": "get_uniform_distributed_ranges spans each axis exactly", "statement": "The result has one row per hyperparameter and samples_per_axis entries per row; for samples_per_axis >= 2 each row starts at lower (0 if scaled), ends at upper (1 if scaled), is strictly increasing and, for log axes, has a constant ratio between consecutive entries; a non-numerical hyperparameter raises AssertionError.", "quantifier": "all hyperparameter lists, all sample counts, log or not", "why_tests_cant": "unbounded counts and bounds", "anchors": ["pyPDP/utils/utils.py:get_uniform_distributed_ranges"]}
{"id": "C08", "title": "seeding isolates components and is reproducible", "statement": "Two components of the same class built from equal config spaces with the same integer seed draw identical configurations in any interleaving with other components, however much the original space or the other components were used before or in between; building or using them never changes what the original config space draws. Only seed=True shares the original's random state. The derived seed lies in [0, 2^31). It depends on the class: with one integer seed, components of two classes get the same derived seed exactly if the md5 digests of the class names agree modulo 2^31.", "quantifier": "all interleaved histories of construction and sampling over any number of components, all seeds", "why_tests_cant": "all schedules of calls", "anchors": ["pyPDP/utils/utils.py:ConfigSpaceHolder.__init__", "pyPDP/utils/utils.py:copy_config_space", "pyPDP/utils/utils.py:ConfigSpaceHolder.sample_random_configuration"]}
{"id": "C09", "title": "median_distance_between_points is the median of the non-zero pairwise distances", "statement": "The result is positive, lies between the smallest and largest non-zero pairwise distance, at least half of those distances are <= it and at least half >= it, and does not depend on the order of the points; with no two distinct points there is no value (nan).", "quantifier": "all finite point sets", "why_tests_cant": "all sizes, orders and coordinates", "anchors": ["pyPDP/utils/utils.py:median_distance_between_points"]}
{"id": "C10", "title": "config_space_nd builds the documented space", "statement": "For scalar bounds, config_space_nd(d) has exactly d hyperparameters named prefix1..prefixd with pairwise different names, each a float hyperparameter with the given bounds and log flag, or a Constant exactly when lower equals upper; for iterables the number of axes is the length of the shortest one.", "quantifier": "all dimensions, bounds and log settings", "why_tests_cant": "unbounded dimension", "anchors": ["pyPDP/blackbox_functions/__init__.py:config_space_nd", "pyPDP/blackbox_functions/__init__.py:BlackboxFunctionND.for_n_dimensions"]}
{"id": "C11", "title": "calling a blackbox function evaluates only legal configurations", "statement": "f(**kwargs) either raises because a hyperparameter is missing, unknown or out of bounds, or returns value_from_config of the configuration with exactly those values.", "quantifier": "all keyword dictionaries and config spaces", "why_tests_cant": "all inputs", "anchors": ["pyPDP/blackbox_functions/__init__.py:BlackboxFunction.__call__"]}
{"id": "C12", "title": "Square and NegativeSquare have their unique optimum at the origin", "statement": "Square(x) >= 0 with equality exactly when every coordinate is 0; NegativeSquare(x) = 1 - Square(x), hence <= 1 with equality exactly at the origin; in every dimension.", "quantifier": "all dimensions and real vectors", "why_tests_cant": "continuum of inputs", "anchors": ["pyPDP/blackbox_functions/synthetic_functions.py:Square", "pyPDP/blackbox_functions/synthetic_functions.py:NegativeSquare"]}
{"id": "C13", "title": "Levy's unique global minimum is 0 at (1,...,1)", "statement": "For every dimension d >= 1 and every x, Levy(x) >= 0, with equality exactly when all coordinates are 1.", "quantifier": "all dimensions and real vectors", "why_tests_cant": "continuum of inputs; test samples 10000 points", "anchors": ["pyPDP/blackbox_functions/synthetic_functions.py:Levy.value_from_config"]}
{"id": "C14", "title": "Ackley's unique global minimum is 0 at the origin", "statement": "For every dimension d >= 1 and every x, Ackley(x) >= 0, with equality exactly when all coordinates are 0.", "quantifier": "all dimensions and real vectors", "why_tests_cant": "continuum of inputs", "anchors": ["pyPDP/blackbox_functions/synthetic_functions.py:Ackley.value_from_config"]}
{"id": "C15", "title": "CrossInTray is symmetric and never below its documented minimum", "statement": "On the default domain [-10,10]^2, CrossInTray is invariant under sign flips and coordinate swap, always <= -0.0001 and never below the value at (a, a) with a = arctan(pi*sqrt 2) ~ 1.3494; this value is attained exactly at the four points (+-a, +-a). The minimum is between -2.062613 and -2.062611, so the documented -2.06261 is the minimum rounded to five digits; a is between 1.3494 and 1.34941 (documented: 1.3491).", "quantifier": "all points of the domain", "why_tests_cant": "continuum of inputs; the repo's own test for this is misspelt and never runs", "anchors": ["pyPDP/blackbox_functions/synthetic_functions.py:CrossInTray.value_from_config"]}
{"id": "C16", "title": "StyblinskiTang is additive over coordinates and has one minimiser", "statement": "The value is the sum of one-dimensional terms (so independent of coordinate order). There is one number a between -2.903535 and -2.903534 such that in every dimension d the value is smallest exactly when every coordinate is a, and the smallest value is d times a number between -39.16617 and -39.16616; the documented minimum -39.16599*d is not a lower bound (it is undercut near -2.903534 in each coordinate).", "quantifier": "all dimensions and real vectors", "why_tests_cant": "continuum of inputs", "anchors": ["pyPDP/blackbox_functions/synthetic_functions.py:StyblinskiTang.value_from_config"]}
{"id": "C17", "title": "StyblinskiTang.pd_integral is the true partial dependence", "statement": "For every non-empty selection of distinct numerical hyperparameters, the function returned by pd_integral maps the remaining coordinates to the average of StyblinskiTang over the box of the selected hyperparameters (the iterated integral divided by the box volume), and return_offset returns the added constant.", "quantifier": "all dimensions, bounds, selections of hyperparameters and remaining values", "why_tests_cant": "integrals over all boxes; test checks d<=3 at 100 points", "anchors": ["pyPDP/blackbox_functions/synthetic_functions.py:StyblinskiTang.pd_integral", "pyPDP/blackbox_functions/synthetic_functions.py:StyblinskiTang._styblinski_tang_integral"]}
{"id": "C18", "title": "pd_integral integrates out exactly the selected hyperparameters", "statement": "The returned function's config space contains exactly the non-selected hyperparameters, in order; an empty selection raises ValueError, an unknown name KeyError, a non-numerical hyperparameter AssertionError; selecting a hyperparameter twice is the same as selecting it once; functions without an implementation raise NotImplementedError.", "quantifier": "all config spaces and selections", "why_tests_cant": "all selections", "anchors": ["pyPDP/blackbox_functions/synthetic_functions.py:StyblinskiTang.pd_integral", "pyPDP/blackbox_functions/__init__.py:BlackboxFunction.pd_integral"]}
{"id": "C19", "title": "sample(n) appends exactly n evaluated points", "statement": "For every sampler kind and every history, a call sample(n) that returns normally leaves all earlier configurations and values in place, in order, and appends exactly n configurations and n values; so len(sampler) is the sum of the requested counts since the last reset. Such a call evaluates the objective function exactly n times, once for each appended point, or not at all if the points are taken from the cache. A call left by an exception has evaluated it at most n times: not at all, only for points that have been recorded, or with the last evaluation being the one that raised the exception.", "quantifier": "all histories of sample/reset/clear_cache/save_cache calls, all n, any cache content", "why_tests_cant": "all call sequences", "anchors": ["pyPDP/sampler/__init__.py:Sampler.sample", "pyPDP/sampler/__init__.py:Sampler.reset", "pyPDP/sampler/bayesian_optimization.py:BayesianOptimizationSampler._sample", "pyPDP/sampler/grid_sampler.py:GridSampler._sample", "pyPDP/sampler/random_sampler.py:RandomSampler._sample"]}
{"id": "C20", "title": "recorded values always belong to their configuration", "statement": "At every moment, including after the objective function raised an exception in the middle of a sample call, config_list and y_list have the same length and y_list[i] is the objective value of config_list[i].", "quantifier": "all histories, all objective functions, all crash points inside an objective evaluation", "why_tests_cant": "all crash points and histories", "anchors": ["pyPDP/sampler/__init__.py:Sampler.sample", "pyPDP/sampler/bayesian_optimization.py:BayesianOptimizationSampler._sample", "pyPDP/sampler/bayesian_optimization.py:BayesianOptimizationSampler._sample_initial_points", "pyPDP/sampler/grid_sampler.py:GridSampler._sample", "pyPDP/sampler/random_sampler.py:RandomSampler._sample"]}
{"id": "C21", "title": "incumbent is the first best evaluated point and never gets worse", "statement": "With no points, incumbent is (None, inf). Otherwise it is (config_list[i], y_list[i]) for the smallest i at which y is minimal (maximal if minimize_objective is False); over any history without reset the incumbent value never gets worse.", "quantifier": "all histories and values", "why_tests_cant": "all sequences of values, ties included", "anchors": ["pyPDP/sampler/__init__.py:Sampler.incumbent", "pyPDP/sampler/__init__.py:Sampler.incumbent_config", "pyPDP/sampler/__init__.py:Sampler.incumbent_value"]}
{"id": "C22", "title": "a cached run replays the original run", "statement": "If a sampler finds a cache file written by an identical earlier sampler (same class, seed, arguments and objective), then any sequence of sample calls yields the same configurations and values as without the cache.", "quantifier": "all call sequences and all cache sizes", "why_tests_cant": "all call sequences and cache lengths", "anchors": ["pyPDP/sampler/__init__.py:Sampler.sample", "pyPDP/sampler/__init__.py:Sampler._load_cache"]}
{"id": "C23", "title": "save then load restores the samples", "statement": "save_cache writes exactly the sampled configurations and values, in order, and a new sampler with the same hash loads exactly these; nothing is written when nothing was sampled or while unused cache entries remain; a corrupt cache file never prevents construction.", "quantifier": "all sampler states, all file contents", "why_tests_cant": "all histories and all file contents", "anchors": ["pyPDP/sampler/__init__.py:Sampler.save_cache", "pyPDP/sampler/__init__.py:Sampler._load_cache", "pyPDP/sampler/__init__.py:Sampler.__del__"]}
{"id": "C24", "title": "saving never shrinks the cache on disk", "statement": "A sampler never replaces its cache file by one with fewer points than it loaded from that file.", "quantifier": "all histories of sample/save calls", "why_tests_cant": "all call sequences", "anchors": ["pyPDP/sampler/__init__.py:Sampler.save_cache", "pyPDP/sampler/__init__.py:Sampler.sample"]}
{"id": "C25", "title": "samplers that behave differently do not share a cache file", "statement": "Two samplers that would draw or evaluate different points (different class, config space, seed, objective, minimisation direction, or arguments) use different cache keys.", "quantifier": "all pairs of sampler constructions", "why_tests_cant": "all pairs of arguments", "anchors": ["pyPDP/sampler/__init__.py:Sampler._hash", "pyPDP/sampler/bayesian_optimization.py:BayesianOptimizationSampler.__init__"]}
{"id": "C26", "title": "RandomSampler evaluates exactly the drawn configurations", "statement": "RandomSampler.sample(n) records the n configurations drawn from its seeded config space, in order, each with its objective value, for every n >= 1.", "quantifier": "all n, all random states", "why_tests_cant": "all counts; the single-point case is never tested", "anchors": ["pyPDP/sampler/random_sampler.py:RandomSampler._sample"]}
{"id": "C27", "title": "GridSampler never evaluates a point twice", "statement": "For every history of successful sample calls, the configurations recorded by a GridSampler (without cache) are pairwise different and all come from regular grids over the config space. On float hyperparameters the grid with k >= 2 steps consists of exactly the configurations whose every value is one of k evenly spaced ones from bound to bound (in the logarithm for a logarithmic hyperparameter). After the first call of a new sampler for n >= 1 points the recorded configurations and the ones left over are together the grid with k steps, k being the value computed for int(np.ceil(n ** (1 / d))) (if that is large enough, see C136); if k^d = n, every point of that grid has been evaluated exactly once.", "quantifier": "all histories, all shuffles, all dimensions", "why_tests_cant": "all histories and shuffles", "anchors": ["pyPDP/sampler/grid_sampler.py:GridSampler._sample"]}
{"id": "C28", "title": "GridSampler always has enough grid points", "statement": "GridSampler.sample(n) succeeds for every n on every config space of float hyperparameters, also when called repeatedly.", "quantifier": "all histories, all shuffles, all dimensions", "why_tests_cant": "all histories and shuffles", "anchors": ["pyPDP/sampler/grid_sampler.py:GridSampler._sample"]}
{"id": "C29", "title": "BayesianOptimizationSampler draws the initial design first and then one point per step", "statement": "From an empty sampler without cache, sample(n) evaluates min(n, initial_points) random configurations first and chooses the remaining n - initial_points ones by the acquisition function; once at least initial_points points exist every further point is chosen by the acquisition function.", "quantifier": "all n, initial_points, histories", "why_tests_cant": "all histories", "anchors": ["pyPDP/sampler/bayesian_optimization.py:BayesianOptimizationSampler._sample", "pyPDP/sampler/bayesian_optimization.py:BayesianOptimizationSampler._sample_initial_points"]}
{"id": "C30", "title": "after sampling, the surrogate is fitted on exactly the recorded data", "statement": "Whenever BayesianOptimizationSampler.sample returns, and whenever the acquisition function is asked for the next point, the surrogate was last fitted on exactly the current configurations and values.", "quantifier": "all histories, cached or not", "why_tests_cant": "all histories", "anchors": ["pyPDP/sampler/bayesian_optimization.py:BayesianOptimizationSampler.sample", "pyPDP/sampler/bayesian_optimization.py:BayesianOptimizationSampler.fit_surrogate", "pyPDP/surrogate_models/__init__.py:SurrogateModel.fit"]}
{"id": "C31", "title": "fit_surrogate skips redundant refits", "statement": "fit_surrogate(force=False) does nothing when the surrogate is already fitted with the current configurations.", "quantifier": "all states", "why_tests_cant": "all histories", "anchors": ["pyPDP/sampler/bayesian_optimization.py:BayesianOptimizationSampler.fit_surrogate"]}
{"id": "C32", "title": "each acquired point maximises the acquisition function, updated with the incumbent", "statement": "Every acquisition step first passes the current incumbent value to the acquisition function and then evaluates a candidate whose acquisition value is maximal among the sampled candidates (the first such).", "quantifier": "all states, candidates and acquisition functions", "why_tests_cant": "all candidate lists and values", "anchors": ["pyPDP/sampler/bayesian_optimization.py:BayesianOptimizationSampler._sample", "pyPDP/sampler/acquisition_function.py:AcquisitionFunction.get_optimum", "pyPDP/sampler/acquisition_function.py:AcquisitionFunction._get_optimum_uniform_distribution"]}
{"id": "C33", "title": "maximum_mean_discrepancy is the unbiased MMD estimate, clipped at zero", "statement": "For n, m >= 2 and points that are not all equal, the result r satisfies r >= 0 and r^2 = max(0, mean off-diagonal kernel within samples + the same within the uniform points - 2 * mean cross kernel), with the RBF kernel of length scale median distance; it does not depend on the order of the samples and is at most sqrt 2. For a given length scale and independent points, the expected value of that estimate is the squared maximum mean discrepancy of the two distributions, for all numbers of points from 2 on.", "quantifier": "all sample sets, all reference sets", "why_tests_cant": "all point sets", "anchors": ["pyPDP/sampler/__init__.py:Sampler.maximum_mean_discrepancy"]}
{"id": "C34", "title": "surrogate call and predict are consistent", "statement": "Calling a surrogate on a configuration, a list of configurations or an array returns the same means as predict on the corresponding rows.", "quantifier": "all inputs of each accepted type", "why_tests_cant": "all inputs", "anchors": ["pyPDP/surrogate_models/__init__.py:SurrogateModel.__call__", "pyPDP/surrogate_models/__init__.py:SurrogateModel.predict_config", "pyPDP/surrogate_models/__init__.py:SurrogateModel.predict_configs"]}
{"id": "C35", "title": "get_incumbent returns the best of the drawn configurations", "statement": "SurrogateModel.get_incumbent(n) returns one of the n drawn configurations together with its predicted mean, and no drawn configuration has a smaller mean (larger if minimize=False).", "quantifier": "all random states, surrogates, n", "why_tests_cant": "all draws", "anchors": ["pyPDP/surrogate_models/__init__.py:SurrogateModel.get_incumbent"]}
{"id": "C36", "title": "ExpectedImprovement is the expected improvement of a Gaussian", "statement": "For sigma > 0, the value is the expectation of max(eta - eps - Y, 0) for Y ~ N(mean, sigma^2); it is non-negative, decreasing in mean, and exactly 0 for sigma = 0. Maximisation is refused with NotImplementedError.", "quantifier": "all real mean, sigma, eta, eps", "why_tests_cant": "continuum of inputs", "anchors": ["pyPDP/sampler/acquisition_function.py:ExpectedImprovement.__call__"]}
{"id": "C37", "title": "ProbabilityOfImprovement is a probability", "statement": "For sigma > 0 the value is P(Y <= eta - eps) for Y ~ N(mean, sigma^2) when minimising and P(Y >= eta + eps) when maximising; always in [0,1], and 0 for sigma = 0.", "quantifier": "all real mean, sigma, eta, eps", "why_tests_cant": "continuum of inputs", "anchors": ["pyPDP/sampler/acquisition_function.py:ProbabilityOfImprovement.__call__"]}
{"id": "C38", "title": "LowerConfidenceBound ranks by optimistic value", "statement": "When minimising, a candidate has maximal LCB value iff mean - tau*sigma is minimal; when maximising, iff mean + tau*sigma is maximal.", "quantifier": "all candidate sets", "why_tests_cant": "all candidate sets", "anchors": ["pyPDP/sampler/acquisition_function.py:LowerConfidenceBound.__call__"]}
{"id": "C39", "title": "get_optimum returns a best sampled candidate", "statement": "get_optimum returns a configuration drawn from the config space with maximal acquisition value among the n_samples_for_optimization drawn ones, for every positive number of candidates.", "quantifier": "all draws, all acquisition functions, all candidate counts", "why_tests_cant": "all draws", "anchors": ["pyPDP/sampler/acquisition_function.py:AcquisitionFunction.get_optimum"]}
{"id": "C40", "title": "grid_points is the full regular grid", "statement": "For k >= 1 selected hyperparameters and g >= 1 grid points per axis, grid_points has g^k rows and enumerates every k-tuple over the axis grid {0, 1/(g-1), ..., 1} (just {0} if g=1) exactly once.", "quantifier": "all k and g", "why_tests_cant": "unbounded k and g", "anchors": ["pyPDP/algorithms/ice.py:ICE.grid_points"]}
{"id": "C41", "title": "x_ice varies only the selected hyperparameters", "statement": "x_ice has shape (num_samples, g^k, num_features); x_ice[s, p, f] equals samples[s, f] for every non-selected feature f, and the selected features of x_ice[s, p] are grid_points[p]; the samples array itself is not modified.", "quantifier": "all samples, grids, selections", "why_tests_cant": "all shapes and contents", "anchors": ["pyPDP/algorithms/ice.py:ICE._calculate"]}
{"id": "C42", "title": "y_ice and y_variances are the surrogate's predictions at x_ice", "statement": "y_ice[s, p] is the surrogate's mean at row x_ice[s, p] and y_variances[s, p] the square of its standard deviation there, hence >= 0, whatever the number of samples and grid points.", "quantifier": "all surrogates, samples, grids", "why_tests_cant": "all shapes", "anchors": ["pyPDP/algorithms/ice.py:ICE._calculate"]}
{"id": "C43", "title": "centered ICE curves start at zero and keep their shape", "statement": "With centered=True set before the first access, y_ice[s, 0] = 0 and all differences along a curve are those of the uncentered curve; variances and x_ice are unaffected.", "quantifier": "all surrogates, samples, grids", "why_tests_cant": "all inputs", "anchors": ["pyPDP/algorithms/ice.py:ICE._calculate"]}
{"id": "C44", "title": "ICE results are computed once and refreshed only by reset", "statement": "Within any history of reads, changes of `centered`, resets and refits of the surrogate, x_ice, y_ice and y_variances always come from one and the same calculation, made with the settings in force at the first read after the last reset; reading does not change later reads.", "quantifier": "all histories", "why_tests_cant": "all call sequences", "anchors": ["pyPDP/algorithms/ice.py:ICE.x_ice", "pyPDP/algorithms/ice.py:ICE.y_ice", "pyPDP/algorithms/ice.py:ICE.y_variances", "pyPDP/algorithms/ice.py:ICE.reset"]}
{"id": "C45", "title": "PDP is the pointwise average of the ICE curves", "statement": "y_pdp[p] and y_variances[p] are the averages over samples of the ICE values; y_pdp[p] lies between the smallest and largest ICE value at p, does not depend on the order of the samples, and x_pdp[p] carries the grid point in the selected features and the sample mean in the others.", "quantifier": "all ICE data", "why_tests_cant": "all inputs", "anchors": ["pyPDP/algorithms/pdp.py:PDP.y_pdp", "pyPDP/algorithms/pdp.py:PDP.x_pdp", "pyPDP/algorithms/pdp.py:PDP.y_variances"]}
{"id": "C46", "title": "PDP.from_ICE equals a directly constructed PDP", "statement": "For an uncentered ICE, PDP.from_ICE(ice) and PDP built from the same surrogate, selection, samples and grid size give the same x_pdp, y_pdp and y_variances; the grid points coincide.", "quantifier": "all ICE objects", "why_tests_cant": "all inputs", "anchors": ["pyPDP/algorithms/pdp.py:PDP.from_ICE", "pyPDP/algorithms/pdp.py:PDP.ice"]}
{"id": "C47", "title": "single curves and implied config space", "statement": "ice[i] carries row i of x_ice, y_ice, y_variances (IndexError iff i is out of range, negative indices from the end); its implied_config_space gives a Constant exactly for the features with a single value in the curve and otherwise the range of natural values, a subset of the full space.", "quantifier": "all curves and indices", "why_tests_cant": "all inputs", "anchors": ["pyPDP/algorithms/ice.py:ICE.__getitem__", "pyPDP/algorithms/ice.py:ICECurve.implied_config_space"]}
{"id": "C48", "title": "from_random_points is reproducible and sized as requested", "statement": "Algorithm.from_random_points with equal surrogate config spaces and equal seed uses the same samples, has exactly num_samples of them for every positive num_samples, and does not disturb the surrogate's own random state.", "quantifier": "all seeds, counts, prior histories", "why_tests_cant": "all histories", "anchors": ["pyPDP/algorithms/__init__.py:Algorithm.from_random_points"]}
{"id": "C49", "title": "selected and excluded hyperparameters are never split", "statement": "No split condition in any region produced by a partitioner refers to a selected hyperparameter, to one listed in not_splittable_hp, or to one outside the config space.", "quantifier": "all trees, inputs, depths", "why_tests_cant": "all inputs", "anchors": ["pyPDP/algorithms/partitioner/__init__.py:Partitioner.__init__", "pyPDP/algorithms/partitioner/decision_tree_partitioner.py:DecisionTreePartitioner.calc_best_split"]}
{"id": "C50", "title": "leaves partition the ICE curves", "statement": "After partition(max_depth), every sample's curve (x rows, y values and variances together) is in exactly one leaf: the leaves' contents, concatenated, are a rearrangement of the root's, and no curve is altered.", "quantifier": "all samples, surrogates, depths, settings", "why_tests_cant": "all inputs", "anchors": ["pyPDP/algorithms/partitioner/decision_tree_partitioner.py:DecisionTreePartitioner.partition", "pyPDP/algorithms/partitioner/decision_tree_partitioner.py:DTRegion.filter_by_condition", "pyPDP/algorithms/partitioner/decision_tree_partitioner.py:DTRegion.split_at_value"]}
{"id": "C51", "title": "depth limit and leaf count", "statement": "partition(max_depth) terminates; every leaf has depth <= max_depth and there are between 1 and 2^max_depth leaves; a leaf has depth exactly its number of split conditions; max_depth <= 0 raises AssertionError.", "quantifier": "all inputs and depths", "why_tests_cant": "unbounded depth", "anchors": ["pyPDP/algorithms/partitioner/decision_tree_partitioner.py:DecisionTreePartitioner.partition"]}
{"id": "C52", "title": "min_points_per_node is honoured", "statement": "Every leaf other than the root contains at least min_points_per_node curves.", "quantifier": "all inputs", "why_tests_cant": "all inputs", "anchors": ["pyPDP/algorithms/partitioner/decision_tree_partitioner.py:DecisionTreePartitioner.calc_best_split"]}
{"id": "C53", "title": "each split is a best admissible split", "statement": "calc_best_split returns children whose summed loss is minimal over all splittable hyperparameters and all num_splits_per_axis interior thresholds j/(n+1) that leave enough points on both sides (the first such), and returns None exactly when no such threshold exists; it never returns a split when there is no admissible one.", "quantifier": "all regions and settings", "why_tests_cant": "all inputs", "anchors": ["pyPDP/algorithms/partitioner/decision_tree_partitioner.py:DecisionTreePartitioner.calc_best_split"]}
{"id": "C54", "title": "leaves are split whenever possible", "statement": "A leaf of partition(max_depth) either has depth max_depth, or contains at most one curve, or admits no split respecting min_points_per_node.", "quantifier": "all inputs", "why_tests_cant": "all inputs", "anchors": ["pyPDP/algorithms/partitioner/decision_tree_partitioner.py:DecisionTreePartitioner.partition"]}
{"id": "C55", "title": "region loss is a sum of squared deviations", "statement": "loss >= 0; it is 0 exactly when all variance curves in the region coincide, does not depend on the order of curves, and is the smallest sum of squared distances of the curves to any common curve.", "quantifier": "all regions", "why_tests_cant": "all inputs", "anchors": ["pyPDP/algorithms/partitioner/__init__.py:Region.loss"]}
{"id": "C56", "title": "partitioning never increases the loss", "statement": "Splitting a region never increases the summed loss, so the leaves' total loss is at most the root's loss, at every depth.", "quantifier": "all inputs and depths", "why_tests_cant": "all inputs", "anchors": ["pyPDP/algorithms/partitioner/__init__.py:Region.loss", "pyPDP/algorithms/partitioner/decision_tree_partitioner.py:DecisionTreePartitioner.partition"]}
{"id": "C57", "title": "every configuration lies in exactly one leaf", "statement": "For every configuration of numerical hyperparameters, exactly one leaf of the last partition call contains it, and get_incumbent_region returns that leaf; before any partition call get_incumbent_region raises AssertionError.", "quantifier": "all trees and configurations", "why_tests_cant": "continuum of configurations; test samples 1000", "anchors": ["pyPDP/algorithms/partitioner/decision_tree_partitioner.py:DTRegion.__contains__", "pyPDP/algorithms/partitioner/decision_tree_partitioner.py:SplitCondition.is_satisfied", "pyPDP/algorithms/partitioner/decision_tree_partitioner.py:DecisionTreePartitioner.get_incumbent_region"]}
{"id": "C58", "title": "a curve sits in the leaf that contains its configuration", "statement": "For float hyperparameters, a sample's configuration is contained (in natural units) in exactly the leaf that holds its ICE curve.", "quantifier": "all samples and trees", "why_tests_cant": "continuum of samples", "anchors": ["pyPDP/algorithms/partitioner/decision_tree_partitioner.py:DTRegion.filter_by_condition", "pyPDP/algorithms/partitioner/decision_tree_partitioner.py:SplitCondition.is_satisfied"]}
{"id": "C59", "title": "implied_config_space is the box of the region", "statement": "For each hyperparameter, implied_config_space has as upper bound the minimum of the original upper bound and all '<=' thresholds, and as lower bound the maximum of the original lower bound and all '>' thresholds; a configuration of the space is contained in the region iff it lies in that box and strictly above every '>' threshold; without conditions it equals the original space; with min_points_per_node >= 1 the box of every leaf of a tree is proper (lower < upper on every axis) and full on the axes that are not split.", "quantifier": "all conditions and configurations", "why_tests_cant": "all condition lists", "anchors": ["pyPDP/algorithms/partitioner/decision_tree_partitioner.py:DTRegion.implied_config_space"]}
{"id": "C60", "title": "split conditions partition configurations and display correctly", "statement": "For every float threshold the '<=' and '>' conditions are complementary on every configuration; a condition built from a natural value within the bounds reports that same value; constructing one needs exactly one of value / normalized_value, and a float needs less_equal.", "quantifier": "all thresholds and configurations", "why_tests_cant": "continuum of values", "anchors": ["pyPDP/algorithms/partitioner/decision_tree_partitioner.py:SplitCondition"]}
{"id": "C61", "title": "partition is repeatable and deeper partitions refine shallower ones", "statement": "Calling partition again with the same depth gives the same leaves whatever was called before; with a larger depth every new leaf's curves are a subset of one old leaf's curves.", "quantifier": "all histories and depths", "why_tests_cant": "all call sequences", "anchors": ["pyPDP/algorithms/partitioner/decision_tree_partitioner.py:DecisionTreePartitioner.partition"]}
{"id": "C62", "title": "DecisionTreePartitioner.from_ICE partitions the given ICE curves", "statement": "The root region of DecisionTreePartitioner.from_ICE(ice) consists of the curves of ice.", "quantifier": "all ICE objects including centered ones", "why_tests_cant": "all inputs", "anchors": ["pyPDP/algorithms/partitioner/decision_tree_partitioner.py:DecisionTreePartitioner.from_ICE"]}
{"id": "C63", "title": "negative_log_likelihood is the mean Gaussian log loss of the region's PDP", "statement": "For a function with an exact partial dependence, the result is minus the average log density of the true partial dependence at the grid points under N(mean curve, mean variance); over all mean curves it is smallest exactly when the region's mean curve equals the true one; a true function whose space has no non-selected hyperparameter raises ValueError.", "quantifier": "all regions with positive variances", "why_tests_cant": "continuum of inputs", "anchors": ["pyPDP/algorithms/partitioner/__init__.py:Region.negative_log_likelihood"]}
{"id": "C64", "title": "delta_nll measures relative improvement", "statement": "delta_nll is 0 for the full region itself, positive iff the region's NLL is smaller than the root's, for every non-zero root NLL.", "quantifier": "all values", "why_tests_cant": "continuum of inputs", "anchors": ["pyPDP/algorithms/partitioner/__init__.py:Region.delta_nll", "pyPDP/utils/utils.py:calculate_log_delta"]}
{"id": "C65", "title": "region PDP is the PDP of its curves", "statement": "pdp_as_ice_curve of the root region equals the PDP of the ICE, and the root PDP is the size-weighted average of the leaf PDPs.", "quantifier": "all trees", "why_tests_cant": "all inputs", "anchors": ["pyPDP/algorithms/partitioner/__init__.py:Region.pdp_as_ice_curve"]}
{"id": "C66", "title": "random forest partition builds the requested trees", "statement": "RandomForestPartitioner.partition(num_trees, max_depth, sample_size) builds exactly num_trees trees, each partitioning exactly sample_size curves drawn from the samples and splitting only on a non-empty subset of the splittable hyperparameters; calling it again replaces the trees.", "quantifier": "all random draws and settings", "why_tests_cant": "all random draws", "anchors": ["pyPDP/algorithms/partitioner/random_forest_partitioner.py:RandomForestPartitioner.partition"]}
{"id": "C67", "title": "random forest partition works with default sample_size", "statement": "partition() without sample_size uses all samples' count as bootstrap size.", "quantifier": "all inputs", "why_tests_cant": "README documents the call; tests always pass sample_size", "anchors": ["pyPDP/algorithms/partitioner/random_forest_partitioner.py:RandomForestPartitioner.partition"]}
{"id": "C68", "title": "random forest honours its splitting options", "statement": "min_points_per_node and num_splits_per_axis given to RandomForestPartitioner apply to its trees.", "quantifier": "all settings", "why_tests_cant": "all settings", "anchors": ["pyPDP/algorithms/partitioner/random_forest_partitioner.py:RandomForestPartitioner.partition", "pyPDP/algorithms/partitioner/random_forest_partitioner.py:RandomForestPartitioner.__init__"]}
{"id": "C69", "title": "random forest incumbent region is the overlap vote", "statement": "get_incumbent_region contains exactly the samples that lie in the incumbent's region of at least min_incumbent_overlap trees (all trees by default), with their own curves in order; it shrinks as the overlap grows, equals all samples for overlap 0, and a sample equal to the incumbent is always included when overlap <= number of trees.", "quantifier": "all forests, incumbents, overlaps", "why_tests_cant": "all inputs", "anchors": ["pyPDP/algorithms/partitioner/random_forest_partitioner.py:RandomForestPartitioner.get_incumbent_region"]}
{"id": "C70", "title": "figure grid shape is sufficient and tight", "statement": "as_quadratic_shape_as_possible_for_n_figures(n) returns (w, h) with w = ceil(sqrt n), h <= w, w*h >= n and w*(h-1) < n for every n >= 1; n = 0 raises ValueError.", "quantifier": "all n", "why_tests_cant": "unbounded n", "anchors": ["pyPDP/utils/plotting.py:as_quadratic_shape_as_possible_for_n_figures"]}
{"id": "C71", "title": "plots never silently mix different hyperparameters on one axis", "statement": "Once an axis is labelled for a selection of one or two hyperparameters, every later check_and_set_axis for a different selection raises ValueError and leaves the labels unchanged, while repeating the same selection succeeds and changes nothing.", "quantifier": "all sequences of calls", "why_tests_cant": "all call sequences", "anchors": ["pyPDP/utils/plotting.py:check_and_set_axis"]}
{"id": "C72", "title": "confidence bands are symmetric, nested and within max_sigma", "statement": "plot_1D_confidence_color_gradients draws sigma_steps bands mean +- f*std with f increasing from 0 and below max_sigma, each band containing the previous; plot_1D_confidence_lines draws, for each non-zero k in increasing order, mean-k*std and mean+k*std; stds are sqrt of variances if those are given, and giving both or none raises RuntimeError.", "quantifier": "all means, stds, steps", "why_tests_cant": "all inputs", "anchors": ["pyPDP/utils/plotting.py:plot_1D_confidence_color_gradients", "pyPDP/utils/plotting.py:plot_1D_confidence_lines", "pyPDP/utils/utils.py:get_stds"]}
{"id": "C73", "title": "plot_function evaluates the function on the plotted grid", "statement": "plot_function passes every point of the plotted grid with all constants to f by name, pairs each value with its own coordinates (2D: row = second parameter, column = first), and raises ValueError for 0 or more than 2 non-constant hyperparameters.", "quantifier": "all functions and spaces", "why_tests_cant": "all inputs", "anchors": ["pyPDP/utils/plotting.py:plot_function"]}
{"id": "C74", "title": "plot_incumbent marks the minimum of the curve", "statement": "ICECurve.plot_incumbent marks the natural-unit coordinates of the first grid point with smallest y.", "quantifier": "all curves", "why_tests_cant": "all inputs", "anchors": ["pyPDP/algorithms/ice.py:ICECurve.plot_incumbent"]}
{"id": "C75", "title": "adjust_lightness yields a valid colour", "statement": "For every RGB colour with channels in [0,1] and every amount, adjust_lightness returns channels in [0,1]; amount 1 returns the colour itself.", "quantifier": "all colours and amounts", "why_tests_cant": "continuum of inputs", "anchors": ["pyPDP/utils/plotting.py:adjust_lightness"]}
{"id": "C76", "title": "unscale handles spaces that mix numerical and categorical hyperparameters", "statement": "unscale(x, cs) maps every numerical column to natural units and every categorical column to its choices also when both kinds occur in one space.", "quantifier": "all arrays and mixed config spaces", "why_tests_cant": "all contents, dtypes and column orders", "anchors": ["pyPDP/utils/utils.py:unscale"]}
{"id": "C77", "title": "the number of random initial points does not depend on how sample calls are split", "statement": "A fresh BO sampler records exactly min(initial_points, n) points from the initial random design after sampling n points in total, however the n points are divided over sample calls.", "quantifier": "all initial_points, all sequences of sample calls", "why_tests_cant": "all splits of all totals", "anchors": ["pyPDP/sampler/bayesian_optimization.py:BayesianOptimizationSampler._sample", "pyPDP/sampler/bayesian_optimization.py:BayesianOptimizationSampler._sample_initial_points"]}
{"id": "C78", "title": "acquisition functions treat all input types alike", "statement": "Calling an acquisition function on a configuration, a list of configurations and/or vectors, or an array gives the same value for the same row, one value per row, in order.", "quantifier": "all surrogates, acquisition functions, inputs of each accepted type", "why_tests_cant": "all inputs", "anchors": ["pyPDP/sampler/acquisition_function.py:AcquisitionFunction.convert_configs"]}
{"id": "C79", "title": "surrogate_score returns the surrogate's predictions", "statement": "BayesianOptimizationSampler.surrogate_score(configs) returns the means and standard deviations of the given configurations (two empty arrays for none).", "quantifier": "all inputs", "why_tests_cant": "all inputs", "anchors": ["pyPDP/sampler/bayesian_optimization.py:BayesianOptimizationSampler.surrogate_score"]}
{"id": "C80", "title": "reset makes changed attributes effective", "statement": "After assigning new samples, a new grid size or a new value of `centered` to an ICE object and calling reset(), x_ice, y_ice and y_variances are those of a newly built ICE with these attributes.", "quantifier": "all ICE objects, all new values", "why_tests_cant": "all histories and values", "anchors": ["pyPDP/algorithms/ice.py:ICE.reset", "pyPDP/algorithms/ice.py:ICE._calculate"]}
{"id": "C81", "title": "values of a PDP belong together", "statement": "x_pdp, y_pdp and y_variances of one PDP object always stem from the same calculation of its ICE, in every order and at every time they are read.", "quantifier": "all histories of the shared ICE object", "why_tests_cant": "all call sequences", "anchors": ["pyPDP/algorithms/pdp.py:PDP.x_pdp", "pyPDP/algorithms/pdp.py:PDP.y_pdp", "pyPDP/algorithms/pdp.py:PDP.y_variances"]}
{"id": "C82", "title": "mean_confidence is the average standard deviation", "statement": "Region.mean_confidence is the average of the standard deviations over all curves and grid points of the region; it is non-negative and at most the root of the average variance; an empty region has none (nan).", "quantifier": "all regions with non-negative variances", "why_tests_cant": "continuum of inputs", "anchors": ["pyPDP/algorithms/partitioner/__init__.py:Region.mean_confidence"]}
{"id": "C83", "title": "plot_values shows the curve in natural units", "statement": "plot_values of an ICE curve, a PDP or a region draws for one selected hyperparameter exactly one line: the curve's values over its grid points converted to the units of that hyperparameter; for two it draws the values at the converted points of both; for any other number NotImplementedError, and a refused axis draws nothing. For a PDP the value at the i-th grid point is the mean over the samples of the surrogate's predictions with the selected entries replaced by that grid point.", "quantifier": "all numerical spaces (log or linear), curves, samples, surrogates, axes", "why_tests_cant": "all spaces, curves and surrogates; the tests look at the output by eye", "anchors": ["pyPDP/algorithms/ice.py:ICECurve.plot_values", "pyPDP/algorithms/pdp.py:PDP.plot_values", "pyPDP/algorithms/partitioner/__init__.py:Region.plot_values"]}
{"id": "C84", "title": "plot_confidences shows the standard deviations", "statement": "plot_confidences of an ICE curve, a PDP or a region draws for one selected hyperparameter the confidence bands and lines of the curve with standard deviations that are the non-negative square roots of its variances, over its grid in natural units; for two it draws the standard deviations at the grid points; for any other number NotImplementedError.", "quantifier": "all numerical spaces, curves, samples, surrogates, axes", "why_tests_cant": "all spaces, curves and surrogates", "anchors": ["pyPDP/algorithms/ice.py:ICECurve.plot_confidences", "pyPDP/algorithms/pdp.py:PDP.plot_confidences", "pyPDP/algorithms/partitioner/__init__.py:Region.plot_confidences"]}
{"id": "C88", "title": "ICE.plot and DTRegion.plot draw one line per curve", "statement": "ICE.plot and DTRegion.plot draw for one selected hyperparameter one line per curve, in the order of the curves, each with the values of that curve over its own grid points in natural units (ICE.plot adds one empty line for the legend); for any other number NotImplementedError and nothing is drawn. For a new ICE object the line of sample k shows the surrogate's predictions for sample k with the selected entry replaced by the grid values.", "quantifier": "all numerical spaces, all ICE objects and regions", "why_tests_cant": "all numbers of curves, grid points and spaces", "anchors": ["pyPDP/algorithms/ice.py:ICE.plot", "pyPDP/algorithms/partitioner/decision_tree_partitioner.py:DTRegion.plot"]}
{"id": "C89", "title": "DecisionTreePartitioner.plot draws every curve once, in the colour of its leaf", "statement": "After partition, plot with one colour per leaf draws every curve of the ICE exactly once, in the colour of the leaf that contains it, leaf after leaf; without leaves or with a different number of colours it raises AssertionError and draws nothing.", "quantifier": "all partitioner states, depths and colour lists", "why_tests_cant": "all data sets and depths", "anchors": ["pyPDP/algorithms/partitioner/decision_tree_partitioner.py:DecisionTreePartitioner.plot"]}
{"id": "C85", "title": "SurrogateModel.plot_means and plot_confidences pair each grid point with its own prediction", "statement": "With one hyperparameter plot_means draws one line: num_samples evenly spaced values in natural units, each with the mean predicted for the same normalised value; plot_confidences draws the bands and lines of the predicted standard deviation around that mean. With two hyperparameters a mesh whose entry over (x_i, y_j) is the mean (standard deviation) predicted for the pair of normalised values. Three or more: AssertionError, nothing drawn; an axis of something else: ValueError, nothing drawn.", "quantifier": "all numerical spaces, surrogates that predict row by row, all numbers of samples", "why_tests_cant": "all surrogates and all grid sizes", "anchors": ["pyPDP/surrogate_models/__init__.py:SurrogateModel.plot_means", "pyPDP/surrogate_models/__init__.py:SurrogateModel.plot_confidences"]}
{"id": "C86", "title": "Sampler.plot shows every evaluated point exactly once", "statement": "For one hyperparameter the plotted points are exactly the pairs (value of the hyperparameter, objective) of the evaluated configurations, sorted by value; for two the pairs of the two values in order of evaluation. Other selections: NotImplementedError; unknown hyperparameters or an axis of something else: the error, nothing drawn. A history with more configurations than objective values raises IndexError, two hyperparameters without any evaluation ValueError, an evaluated configuration without a value for a selected hyperparameter KeyError; nothing is drawn then.", "quantifier": "all sampler states, selections and axes, every sorting permutation", "why_tests_cant": "ties and all histories", "anchors": ["pyPDP/sampler/__init__.py:Sampler.plot"]}
{"id": "C87", "title": "plot_config_space draws exactly the bounds", "statement": "For one numerical hyperparameter plot_config_space draws the two vertical lines at its bounds and the area between; for two hyperparameters (numerical or constant) the box between their ends, the first on the x axis. Limits and scales of the axis stay as they are. One non-numerical: AssertionError; two with a categorical: TypeError; any other number: NotImplementedError; nothing is drawn.", "quantifier": "all configuration spaces, selections, colours and axes", "why_tests_cant": "all spaces and kinds", "anchors": ["pyPDP/utils/plotting.py:plot_config_space"]}
{"id": "C90", "title": "plot_incumbent_cs shows the region of the incumbent over the hyperparameters that are not selected", "statement": "After partition, plot_incumbent_cs draws for one unselected hyperparameter the range, for two the box (first name on the x axis) that the conditions of the leaf with the incumbent leave of them, in natural units; the incumbent lies inside. Other numbers of unselected hyperparameters: NotImplementedError; before partition AssertionError; non-numerical space: an error; nothing is drawn in these cases.", "quantifier": "all numerical spaces, grown trees, incumbents and axes", "why_tests_cant": "all trees and incumbents", "anchors": ["pyPDP/algorithms/partitioner/decision_tree_partitioner.py:DecisionTreePartitioner.plot_incumbent_cs", "pyPDP/utils/plotting.py:plot_config_space"]}
{"id": "C91", "title": "plot_incumbent_regions shows the incumbent's region of every tree, in its colour", "statement": "After partition, plot_incumbent_regions draws for every tree of the forest, in order, the region of the incumbent in that tree over the unselected hyperparameters, in the colour of the same position. Before partition: TypeError, nothing drawn.", "quantifier": "all forests, colour lists, incumbents and axes", "why_tests_cant": "all forests", "anchors": ["pyPDP/algorithms/partitioner/random_forest_partitioner.py:RandomForestPartitioner.plot_incumbent_regions"]}
{"id": "C92", "title": "Acquisition function plots show the acquisition value of every drawn configuration", "statement": "AcquisitionFunction.plot over one hyperparameter draws its configured number of candidates, shows the acquisition function at each of them over the candidate's value of the hyperparameter, sorted by it, as a line and as an area to zero, and - if asked - marks the best candidate of a second draw at its value of that hyperparameter and its acquisition value. One candidate is an AttributeError, none a ValueError, two or more hyperparameters a NotImplementedError, each with nothing drawn; an unknown selection or an axis of something else is refused with axis and random state untouched.", "quantifier": "for all acquisition functions, config spaces, selections, random states, numbers of candidates, axes", "why_tests_cant": "plot tests only check that no exception is raised; the mark of the optimum is at the value of the first hyperparameter of the space, which for the one-dimensional tests is the shown one", "anchors": ["pyPDP/sampler/acquisition_function.py:AcquisitionFunction.plot"]}
{"id": "C93", "title": "plot_full_pdp shows the ICE curves, their mean and the confidence", "statement": "For a new PDP of one selected hyperparameter, plot_full_pdp draws on a new axis, in natural units and over the evenly spaced grid, one red line per sample (the predictions for that sample), then the mean over the samples in black, then the confidence (square root of the mean variance) around it. For any other number of selected hyperparameters it raises NotImplementedError and nothing is drawn.", "quantifier": "all numerical spaces, samples, grid sizes and row-wise surrogates", "why_tests_cant": "all surrogates, samples and grids; the plot is never compared with numbers in the tests", "anchors": ["pyPDP/utils/advanced_plots.py:plot_full_pdp", "pyPDP/algorithms/ice.py:ICE.plot", "pyPDP/algorithms/pdp.py:PDP.plot_values"]}
{"id": "C94", "title": "The arrays of partial dependence plots show every hyperparameter and every pair in its place", "statement": "plot_hyperparameter_array_1D draws in the i-th axis of a grid with room for all hyperparameters the mean prediction and confidence over the i-th hyperparameter; the other axes stay empty. plot_hyperparameter_array_2D draws in row i, column j of two n by n figures the means and the standard deviations over hyperparameters j (horizontal) and i (vertical), on the diagonal the curve with its confidence. No hyperparameters: ValueError; one sample only: AttributeError with empty axes.", "quantifier": "all numerical spaces of any size, samples, grid sizes and row-wise surrogates", "why_tests_cant": "all dimensions, surrogates and samples", "anchors": ["pyPDP/utils/advanced_plots.py:plot_hyperparameter_array_1D", "pyPDP/utils/advanced_plots.py:plot_hyperparameter_array_2D"]}
{"id": "C95", "title": "plot_2D_ICE_Curve_with_confidence shows values and standard deviations of a curve side by side", "statement": "For a curve over two hyperparameters the first axis shows its values, the second the square roots of its variances over the same points in natural units; both mark the first grid point of smallest value. One hyperparameter: line and confidence with a vertical line at that point. Otherwise NotImplementedError and empty axes.", "quantifier": "all valid curves", "why_tests_cant": "all curves", "anchors": ["pyPDP/utils/advanced_plots.py:plot_2D_ICE_Curve_with_confidence"]}
{"id": "C96", "title": "plot_full_bayesian shows surrogate, evaluated points, acquisition function and its optimum", "statement": "For a sampler over one hyperparameter the upper axis shows the predictions with confidence and the evaluated points, the lower axis the acquisition function at the candidates and a mark at the optimum. More hyperparameters are refused with an error.", "quantifier": "all samplers, surrogates, spaces and random states", "why_tests_cant": "all states of the random generator, surrogates and samples", "anchors": ["pyPDP/utils/advanced_plots.py:plot_full_bayesian"]}
{"id": "C97", "title": "The synthetic functions compute the published test functions", "statement": "In every dimension and at every point, Levy, Ackley (a = 20, b = 0.2, c = 2 pi), CrossInTray and StyblinskiTang return the value of the formula on the page their documentation cites, Square the sum of the squares and NegativeSquare one minus it. StyblinskiTang does so for any names and order of the coordinates in the configuration.", "quantifier": "all dimensions and all real points", "why_tests_cant": "all points of all dimensions; a wrong sign, index or constant can agree at the optimum the tests look at", "anchors": ["pyPDP/blackbox_functions/synthetic_functions.py:Square.value_from_config", "pyPDP/blackbox_functions/synthetic_functions.py:NegativeSquare.value_from_config", "pyPDP/blackbox_functions/synthetic_functions.py:Levy.value_from_config", "pyPDP/blackbox_functions/synthetic_functions.py:Ackley.value_from_config", "pyPDP/blackbox_functions/synthetic_functions.py:CrossInTray.value_from_config", "pyPDP/blackbox_functions/synthetic_functions.py:StyblinskiTang.value_from_config"]}
{"id": "C98", "title": "adjust_lightness multiplies the lightness", "statement": "For every valid RGB colour and every amount, the HLS lightness (middle of largest and smallest channel) of the result is amount times the lightness of the colour, limited to [0,1]: amounts below 1 darken every colour but black, amounts above 1 lighten every colour but black and white, black stays black. (The doc string says the opposite of the first two.)", "quantifier": "all colours and amounts", "why_tests_cant": "all colours of a continuum and all amounts; hue sectors and clipping interact", "anchors": ["pyPDP/utils/plotting.py:adjust_lightness"]}
{"id": "C99", "title": "the Gaussian process surrogate is a sound regression model", "statement": "GaussianProcessSurrogate (and SkLearnPipelineSurrogate around it): fitting to any data that fits together succeeds and sets num_fitted_points to the number of targets; predict gives one mean and one standard deviation per row, depending on that row only; every standard deviation is positive (for kernels of positive variance, as the default one), none exceeds the standard deviation of the targets, and at a training point it is at most 1e-4 of it; the means fit the training targets at least as well as their average; equal targets are predicted everywhere; predictions follow a positive affine change of the units of the targets, and do not depend on the units of the input columns or on the order of the training points. Predicting before fitting, or rows of another width, is a ValueError. The default kernel Matern(nu=1.5) is a covariance function in every dimension.", "quantifier": "all training data, targets, kernels that are covariance functions, length scales, rows to predict", "why_tests_cant": "needs all data sets and all kernels; exactness at training points holds for each of them", "anchors": ["pyPDP/surrogate_models/sklearn_surrogates.py:SkLearnPipelineSurrogate.predict", "pyPDP/surrogate_models/sklearn_surrogates.py:SkLearnPipelineSurrogate._fit", "pyPDP/surrogate_models/sklearn_surrogates.py:GaussianProcessSurrogate.__init__", "pyPDP/surrogate_models/__init__.py:SurrogateModel.fit"]}
{"id": "C100", "title": "the README workflow runs through and its results mean what the README says", "statement": "For a space of float hyperparameters, any evaluated points (X, y) of the right width, any non-empty selection of distinct hyperparameters, any non-empty sample array, >= 1 grid points per axis, min_points_per_node >= 1, max_depth >= 1 and any incumbent configuration within the bounds: GaussianProcessSurrogate.fit, ICE, PDP.from_ICE, DecisionTreePartitioner.from_ICE, partition and get_incumbent_region all succeed. The PDP value at a grid point is the average, over the samples, of the surrogate's mean at the sample with the selected values replaced by the grid point (likewise the variances). The region returned contains the incumbent, so does its implied_config_space (which has the same hyperparameters); its PDP is the same average over exactly the samples whose configurations lie in the region, at least min_points_per_node of them unless it is the whole space. No reported PDP variance exceeds the square of, and no mean_confidence exceeds, the standard deviation of y (1 for constant y).", "quantifier": "all spaces, evaluated points, samples, selections, grid sizes, depths and incumbents; every surrogate that predicts row by row for the part without bounds", "why_tests_cant": "A test runs the pipeline on one benchmark function; that the pieces always fit together (shapes, conditions, containment) and that the region PDP averages exactly the samples in the region is a statement about all inputs.", "anchors": ["pyPDP/algorithms/ice.py:ICE", "pyPDP/algorithms/pdp.py:PDP.from_ICE", "pyPDP/algorithms/partitioner/decision_tree_partitioner.py:DecisionTreePartitioner.from_ICE", "pyPDP/algorithms/partitioner/decision_tree_partitioner.py:DecisionTreePartitioner.get_incumbent_region", "pyPDP/surrogate_models/sklearn_surrogates.py:SkLearnPipelineSurrogate._fit"]}
{"id": "C101", "title": "Bayesian optimisation with the default components never gets stuck", "statement": "A BayesianOptimizationSampler with the GaussianProcessSurrogate (whatever length scales its optimiser finds), one of the acquisition functions ExpectedImprovement, ProbabilityOfImprovement or LowerConfidenceBound, initial_points >= 1 and samples_for_optimization >= 2 returns normally from every call of every history of sample(n >= 1), reset, clear_cache and save_cache, with any cache of configurations of the space. Every acquired point is the first of the drawn candidates with the largest acquisition value, computed from the mean and the positive standard deviation of a Gaussian process fitted to exactly the points recorded so far and from the best value recorded so far. The conditions are needed: sample(0) on a new sampler and any sample call with initial_points <= 0 raise ValueError, a single candidate leads to a TypeError.", "quantifier": "all objective functions that do not raise on the space, dimensions, random draws, length scales, histories", "why_tests_cant": "The surrogate, its optimiser and the random draws interact over whole histories; a test runs one seed on one function.", "anchors": ["pyPDP/sampler/bayesian_optimization.py:BayesianOptimizationSampler.__init__", "pyPDP/sampler/bayesian_optimization.py:BayesianOptimizationSampler.sample", "pyPDP/sampler/bayesian_optimization.py:BayesianOptimizationSampler._sample", "pyPDP/sampler/acquisition_function.py:AcquisitionFunction.get_optimum", "pyPDP/surrogate_models/sklearn_surrogates.py:GaussianProcessSurrogate.__init__"]}
{"id": "C102", "title": "examples/main.py runs through and reports sound numbers", "statement": "The script examples/main.py succeeds in every dimension d >= 2, for every selected axis, whatever is drawn and whatever length scales are found, also with a cache file of true values: it evaluates 32 d - 20 points of StyblinskiTang, the incumbent is the best of them, the region returned and its implied config space contain the incumbent and hold at least min_points_per_node samples (or all). Both negative log-likelihoods compare the PDP (of all samples, of the samples of the region) with the exact partial dependence (x^4 - 16 x^2 + 5 x) / 2 - 25 (d - 1) / 6 at the grid points x between -5 and 5, under normal distributions whose variances are positive and at most the variance of the evaluated values. Both mean confidences are positive and at most the standard deviation of the evaluated values; their relative change exists, is below 1 and is positive exactly if the region is more certain. The figure it shows has every evaluated point once (its value of the selected hyperparameter, the function value), the PDP over the grid and the confidence band of its standard deviations. With d = 1 the script raises ValueError.", "quantifier": "all dimensions, axes, random draws, length scales, cache files, grid sizes >= 1, depths >= 1, min_points_per_node >= 1", "why_tests_cant": "One run of the script shows one seed; that no step can fail and no reported number is undefined needs all draws.", "anchors": ["pyPDP/sampler/bayesian_optimization.py:BayesianOptimizationSampler.sample", "pyPDP/surrogate_models/sklearn_surrogates.py:GaussianProcessSurrogate.__init__", "pyPDP/algorithms/partitioner/decision_tree_partitioner.py:DecisionTreePartitioner.get_incumbent_region", "pyPDP/algorithms/partitioner/__init__.py:Region.negative_log_likelihood", "pyPDP/blackbox_functions/synthetic_functions.py:StyblinskiTang.pd_integral", "pyPDP/utils/utils.py:calculate_log_delta"]}
{"id": "C103", "title": "The incumbent region of a forest is not empty", "statement": "After partition, RandomForestPartitioner.get_incumbent_region returns a region that holds at least one ICE curve, so that its mean_confidence is a number and not nan.", "quantifier": "all forests over float hyperparameters, draws of the generator, incumbents, values of min_incumbent_overlap", "why_tests_cant": "Whether enough trees agree on one sample depends on the draws of all trees; small tests use one seed and few trees.", "anchors": ["pyPDP/algorithms/partitioner/random_forest_partitioner.py:RandomForestPartitioner.get_incumbent_region", "pyPDP/algorithms/partitioner/random_forest_partitioner.py:RandomForestPartitioner.partition", "pyPDP/algorithms/partitioner/__init__.py:Region.mean_confidence"]}
{"id": "C104", "title": "examples/main_random_forest.py produces its table", "statement": "A replication of generate_data_trees in examples/main_random_forest.py succeeds in every dimension d >= 2, for every selected axis, whatever is drawn and whatever length scales are found: the incumbent is the best of the evaluated points, the table gets one row for each number of trees in the given order. All base confidences are equal, positive and at most the standard deviation of the evaluated values. The confidence of a region is positive and has the same upper bound, and its relative change against the base is below 1 and positive exactly if the region is more certain - or it is nan, which does not happen with one or two trees. The comparison with the decision tree is always a positive number with this bound. Every confidence is the mean standard deviation predicted by the fitted Gaussian process along the axis, over the samples that share the incumbent's leaf in at least half of the trees (base: over all samples).", "quantifier": "all dimensions >= 2, axes, lists of numbers of trees, sample sizes, depths, random draws, length scales, cache files", "why_tests_cant": "One run of the script shows one seed; nan rows appear only for some draws, and that no step raises needs all draws.", "anchors": ["pyPDP/algorithms/partitioner/random_forest_partitioner.py:RandomForestPartitioner.from_ICE", "pyPDP/algorithms/partitioner/random_forest_partitioner.py:RandomForestPartitioner.partition", "pyPDP/algorithms/partitioner/random_forest_partitioner.py:RandomForestPartitioner.get_incumbent_region", "pyPDP/algorithms/partitioner/__init__.py:Region.mean_confidence", "pyPDP/sampler/bayesian_optimization.py:BayesianOptimizationSampler.sample", "pyPDP/utils/utils.py:calculate_log_delta"]}
{"id": "C105", "title": "The table of the paper is computed as described", "statement": "examples/main_paper.py figure_6_table_1_data_generation: one replication runs through in every dimension d >= 2 and evaluates n + 4 d points. The discrepancy is a number in [0, sqrt 2] unless all points coincide. There is one line for every number of splits: the region contains the incumbent, its implied space is a proper box inside [-5, 5]^d with the full range on the selected axis, the likelihood compares the PDP of the region with the exact average of the function over that box, and the confidence is positive and at most the standard deviation of the evaluated values.", "quantifier": "all dimensions >= 2, selected axes, draws, caches, length scales, numbers of splits and sizes", "why_tests_cant": "The composition needs the sampler, the surrogate, the tree and the integral over regions that differ in every run; the script has no tests.", "anchors": ["examples/main_paper.py:figure_6_table_1_data_generation", "pyPDP/algorithms/partitioner/decision_tree_partitioner.py:DTRegion.implied_config_space", "pyPDP/algorithms/partitioner/__init__.py:Region.negative_log_likelihood", "pyPDP/sampler/__init__.py:Sampler.maximum_mean_discrepancy"]}
{"id": "C106", "title": "The two-dimensional PDP script: what its figures show and which files are left", "statement": "examples/main_2d_pdp.py styblinski_tang_3d runs through in every dimension d >= 2 for every two different hyperparameters and evaluates n + 4 d points with their true values. Its first figure shows the mean predictions over all combinations of grid values of the two hyperparameters, with the evaluated points; its second one the standard deviations, with the same points. Both are saved under the same name, so that the first is lost and exactly two files are left. The last figure shows means and standard deviations over exactly those samples that lie in the region of the best evaluated point, with a white point where the mean is smallest.", "quantifier": "all dimensions >= 2, pairs of hyperparameters, draws, caches, length scales and sizes", "why_tests_cant": "The figures are never inspected by tests, the script has none; that a figure is overwritten shows only in the folder after the run.", "anchors": ["examples/main_2d_pdp.py:styblinski_tang_3d", "pyPDP/utils/advanced_plots.py:plot_2D_ICE_Curve_with_confidence", "pyPDP/algorithms/pdp.py:PDP.plot_values", "pyPDP/algorithms/pdp.py:PDP.plot_confidences", "pyPDP/sampler/__init__.py:Sampler.plot"]}
{"id": "C107", "title": "The walkthrough of the presentation script: nine figures, then a TypeError", "statement": "examples/main_presentation.py algorithm_walkthrough never runs through: for no inputs at all does it end without an exception. With the Styblinski-Tang function of two arguments it saves exactly nine figures, in order, and then raises a TypeError, because ax.annotate is called without a position; the figures of all regions and of the incumbent's region are never saved. The nine figures show: the function over the square; with the 8 initial points; with all evaluated points; means and standard deviations of the surrogate fitted to all points; the prediction of every drawn sample over the selected hyperparameter; with their mean; with confidence bands; and every sample's prediction once, coloured by the leaf it falls in, where every leaf has at least the minimal number of samples or is the only one.", "quantifier": "all inputs for the failure; for the figures all draws, caches, length scales, acquisition functions and sizes", "why_tests_cant": "The script has no tests; that it fails shows only after several minutes of sampling, and what the figures show is not inspected by any test.", "anchors": ["examples/main_presentation.py:algorithm_walkthrough", "examples/main_presentation.py:save_yielded_plots", "pyPDP/utils/plotting.py:plot_config_space", "pyPDP/algorithms/partitioner/decision_tree_partitioner.py:DecisionTreePartitioner.plot", "pyPDP/algorithms/ice.py:ICE.plot"]}
{"id": "C108", "title": "A wrapped HPOBench benchmark is a repeatable function of the arguments and the seed", "statement": "Calling an HPOBenchBlackbox with keyword arguments raises a ValueError if they are not exactly legal values for the hyperparameters of the benchmark's space, without reaching the benchmark. Otherwise it returns the entry function_value of what the benchmark reports for the configuration with exactly these values and the seed of the wrapper (KeyError if there is no such entry). With an integer seed, as all the get_... functions use it, equal arguments give equal results however often and in which order the function is called; without a seed they need not. The get_... functions hand out the space that the function checks its arguments against.", "quantifier": "all benchmarks, seeds, programs of calls and keyword arguments", "why_tests_cant": "The benchmarks need downloads and are not run by the tests; independence of the call history quantifies over all histories.", "anchors": ["pyPDP/blackbox_functions/hpo_bench.py:HPOBenchBlackbox.__init__", "pyPDP/blackbox_functions/hpo_bench.py:HPOBenchBlackbox.value_from_config", "pyPDP/blackbox_functions/hpo_bench.py:get_SVMBenchmarkMF", "pyPDP/blackbox_functions/__init__.py:BlackboxFunction.__call__"]}
{"id": "C109", "title": "The incumbent value of the acquisition function lags one point behind", "statement": "Claim: whenever sample returns, the acquisition function of the sampler works with the value of the incumbent. False: it is updated before each acquired point only, so after a call that acquired points it is the best of all values but the last. It equals the incumbent's value if and only if the last value is not strictly better than all values before it; otherwise the expected improvement computed or plotted afterwards is too large at every configuration with an uncertain prediction. A call that draws initial points only leaves it as it was: for a new sampler the acquisition function has then never been given a value, whatever was observed.", "quantifier": "all objectives, surrogates, acquisition functions, histories of calls and sizes (without cache)", "why_tests_cant": "Tests look at the sampled points, not at the acquisition function between calls, and the difference shows only for histories whose last point is the best.", "anchors": ["pyPDP/sampler/bayesian_optimization.py:BayesianOptimizationSampler._sample", "pyPDP/sampler/bayesian_optimization.py:BayesianOptimizationSampler.sample", "pyPDP/sampler/acquisition_function.py:ExpectedImprovement.update", "pyPDP/sampler/acquisition_function.py:AcquisitionFunction.plot"]}
{"id": "C110", "title": "The introduction of the presentation script: ten figures of exactly the points sampled so far", "statement": "examples/main_presentation.py bo_introduction runs through with the Styblinski-Tang function of one argument and saves exactly ten figures, in order. The first shows the function, the second also the 4 initial points. The others show the function, the first 4, 5, 6, 7, 8, 9 and finally all 60 evaluated points, the means and the confidence predicted by a Gaussian process fitted to exactly the points of the figure, and on the lower axis (for figures 3 to 9) the lower confidence bound of that same process at drawn configurations, sorted, with the best configuration of a further draw. All points are points of the space with their true values.", "quantifier": "all draws, caches, length scales, exploration parameters, limits chosen by matplotlib and sizes", "why_tests_cant": "The script has no tests and figures are not inspected; that the plotted surrogate, which is a different object, agrees with the sampler's own one holds for every history only by proof.", "anchors": ["examples/main_presentation.py:bo_introduction", "examples/main_presentation.py:save_yielded_plots", "pyPDP/sampler/acquisition_function.py:AcquisitionFunction.plot", "pyPDP/surrogate_models/__init__.py:SurrogateModel.plot_means", "pyPDP/surrogate_models/__init__.py:SurrogateModel.plot_confidences", "pyPDP/sampler/__init__.py:Sampler.plot"]}
{"id": "C111", "title": "plot_tree_data shows mean and deviation of the measured reductions, but only until the script is run again", "statement": "From the log file of one call of generate_data_trees with at least one replication, plot_tree_data computes, for the decision tree and for every number of trees that was used (each once, in increasing order), the mean and the (population) standard deviation over exactly the replications' measurements of the reduction of the mean confidence in percent of its base; nan as soon as one of these measurements has no region. For replications the script performs itself, all means that are numbers lie below 100, and the values for the decision tree and for forests of at most two trees always are numbers. If all are numbers the figure consists of three points, the line of the means, the lines one standard deviation off and 100 bands. Because the generating function appends a header with every call, reading a file to which it was called twice or more fails with a TypeError, whatever was measured (a KeyError if no replication was ever performed).", "quantifier": "all replications, seeds, numbers of trees, measured values; any number of calls", "why_tests_cant": "The example scripts have no tests; the failure on a second run depends on how a column with one textual cell is typed.", "anchors": ["examples/main_random_forest.py:plot_tree_data", "examples/main_random_forest.py:generate_data_trees", "pyPDP/utils/utils.py:calculate_log_delta"]}
{"id": "C112", "title": "table_1_drawing prints, for exactly the lines of each group, the average reductions", "statement": "On the log of one call of figure_6_table_1_data_generation in which every combination of the occurring dimensions, taus and numbers of splits occurs, table_1_drawing prints one line per dimension (increasing) and tau (decreasing). For every number of splits (increasing) it shows the average over exactly the lines of that dimension, tau and number of splits of the reduction of the mean confidence and of the negative log-likelihood in percent of the absolute base value, and the average discrepancy over the lines of the smallest number of splits. If a combination is missing it raises a KeyError. With positive confidences all entries for the confidence are numbers below 100. If the file was written by two or more calls it prints nothing and raises a TypeError (or a KeyError if a combination is missing), although the code skips the repeated header lines.", "quantifier": "all lists of lines, values of tau given as int or float, any number of calls", "why_tests_cant": "No test reads a log file; correctness of the grouping and the failure for appended files concern all files.", "anchors": ["examples/main_paper.py:table_1_drawing", "examples/main_paper.py:figure_6_table_1_data_generation", "pyPDP/utils/utils.py:calculate_log_delta"]}
{"id": "C113", "title": "figure_6_drawing: which values each box shows, and which calls have a figure at all", "statement": "On the log of one call with at least two values of tau, every occurring combination of dimension and tau present, and at least two columns, figure_6_drawing draws one panel per tau (increasing) and column with one box per dimension (increasing), computed from the values of the column in exactly the lines of that dimension and tau. The base values of a replication are therefore counted once per number of splits. With a single column or a single value of tau it raises an IndexError (a TypeError if both); if a combination is missing a KeyError. If the file was written by two or more calls there is no figure for any selection of columns other than the discrepancy alone.", "quantifier": "all lists of lines, selections of value columns, any number of calls", "why_tests_cant": "No test draws the figure; shapes of axes arrays and column types depend on the data.", "anchors": ["examples/main_paper.py:figure_6_drawing", "examples/main_paper.py:figure_6_table_1_data_generation"]}
{"id": "C114", "title": "visualize_bad_nll: what titles and axes show, the displaced ground truth and the accumulated delta", "statement": "For every positive number of replications visualize_bad_nll comes to its end. The two titles show the averages over the replications of the negative log likelihoods of the root and of the incumbent's region; both axes show the averages of the curves (at -5 + 10 p/(P-1)) with bands, lines one and two standard deviations off (square root of the average variance) and a black line at evenly spaced points. On the left the black line is the true partial dependence of the function. On the right the line labelled as ground truth should be the average of the true partial dependences of the regions; it is exactly 25 (d-1)/6 below it at every point, because the offset of the region is added to a function that contains the offset of the whole space. The percentage in the title adds up relative improvements of the sums so far: for two replications with positive base values it is the average of the two improvements if and only if these are equal. Without replications the script raises a ZeroDivisionError.", "quantifier": "all numbers of dimensions >= 2, replications, samples, grid points, split settings and depths > 0, all length scales the fit may choose, all drawn points", "why_tests_cant": "The script needs an hour and draws a figure; a displaced black line or a wrong percentage looks plausible.", "anchors": ["examples/main_paper.py:visualize_bad_nll"]}
{"id": "C115", "title": "main_meta_pdp: the value of the meta objective, the shared cache file, and the three images", "statement": "blackbox_function returns minus the average over the repetitions of 1 - (mean confidence of the incumbent's region)/(mean confidence of the root), where both are averages of the standard deviations of the partial dependence over the grid, computed from a Gaussian process fitted to the 34 d - 20 + 4 d points the sampler evaluated; without repetitions it is nan. Successive calls that differ only in the kernel share one cache file, so every call after the first evaluates exactly the points chosen with the first kernel. optimize_mc evaluates 14 kernel sizes within the bounds and saves three images: these sizes with their values; mean and confidence band of a Gaussian process fitted to exactly these values over the grid of kernel sizes; and the band alone.", "quantifier": "all numbers of dimensions >= 1, repetitions, numbers of splits > 0, all kernels of variance 1, all drawn points, all sequences of kernels, all bounds lo < hi and objectives defined on them", "why_tests_cant": "One evaluation takes minutes; that later kernels are judged on the points of the first kernel is invisible in the returned number.", "anchors": ["examples/main_meta_pdp.py:blackbox_function", "examples/main_meta_pdp.py:optimize_mc"]}
{"id": "C116", "title": "main_paper figures 1 to 4: what is shown, and which region is called left", "statement": "figure_1_3 saves, for every list of at least two samplers, one image with the function and the n evaluated points of each sampler, and one with the true partial dependence on x1 (the average over x2) beside the estimate of a Gaussian process fitted to exactly these points; with one sampler it raises TypeError, with none ValueError. figure_2 saves an image with two ICE curves of the sampler's own surrogate, fitted to all n points, beside the function along the same line, and these lines in the square; with fewer points than the index of the second curve it raises IndexError and saves nothing. figure_4 splits the curves of x1 once, at that threshold of x2 with enough curves on both sides whose loss (squared deviations of the variances from their mean, per grid point, summed) is least, the lowest threshold among equals; the variable left_region holds the curves above the threshold and right_region those below or at it; it raises AssertionError if no threshold leaves enough curves on both sides.", "quantifier": "all lists of samplers (Bayesian with any acquisition function, or random), all n >= 2 (figure_1_3) or n >= 1, all drawn points, all kernels of variance 1, all grid sizes, numbers of thresholds and least numbers of curves", "why_tests_cant": "The figures are images; that green and blue, called left and right, are swapped compared with the order of the values cannot be asserted on a PNG.", "anchors": ["examples/main_paper.py:figure_1_3", "examples/main_paper.py:figure_2", "examples/main_paper.py:figure_4"]}
{"id": "C117", "title": "main_sampler_analysis: the averaged partial dependences of the samplers, and what each sampler evaluates", "statement": "plot_sampling_bias saves, for every dictionary of at least two samplers and at least one repetition, in two or more dimensions, one image with two axes per sampler. The blue line is the mean over the repetitions of the partial dependence on x1 of a Gaussian process fitted to exactly the points this sampler evaluated in this repetition; the black line is the true partial dependence; the band and the line of the lower axis have the square roots of the mean variances; the numbers in the title are the mean and the standard deviation of the discrepancies between the evaluated points and uniform ones. Without cached points, Bayesian optimisation with LowerConfidenceBound(tau) takes after its first 4 d points each time the candidate with the smallest mean minus tau times standard deviation of a Gaussian process fitted to the points before it, the random sampler takes what it draws, and the grid sampler takes points of the coarsest sufficient grid; if the number of points is a d-th power (as by default, 64 in two dimensions) it takes all points of the grid, each once, in every repetition. With no sampler ValueError is raised, with one sampler TypeError (after its evaluations), with no repetition AttributeError, in one dimension ValueError; then nothing is saved.", "quantifier": "all dictionaries of samplers (Bayesian with any acquisition function, random, grid), numbers of repetitions and points, dimensions, drawn points, kernels of variance 1, grid sizes", "why_tests_cant": "The result is one image of averages over random runs; no test can tell from the picture which points went into which average.", "anchors": ["examples/main_sampler_analysis.py:plot_sampling_bias"]}
{"id": "C118", "title": "main_hpo_bench: what svm and rf evaluate and save", "statement": "For a benchmark that has a function_value for every legal configuration, svm (two hyperparameters) and rf (any positive number of numerical hyperparameters) evaluate exactly 92 legal configurations, record for each the benchmark's function_value at its values with seed 0, fit a Gaussian process to exactly these, and save images of its predictions: one axis per hyperparameter with the mean and confidence band over the samples drawn for it, and two matrices of axes with the means and the standard deviations over all pairs; svm also saves the predicted means and the predicted standard deviations over both hyperparameters, each with all evaluated configurations. Although the scripts define 12 initial points, without cached points only the first 5 configurations are drawn at random: from the sixth on each minimises, among 100 candidates, the predicted mean minus the predicted standard deviation of a Gaussian process fitted to the configurations before it. svm on a benchmark with three or more hyperparameters raises AssertionError after all evaluations and saves nothing.", "quantifier": "all benchmarks, config spaces of float and integer hyperparameters (log or not), drawn configurations, kernels of variance 1, cache files with true values, states of the benchmark", "why_tests_cant": "HPOBench and OpenML are needed to run the scripts, a run takes long, and which points are random cannot be seen in the images.", "anchors": ["examples/main_hpo_bench.py:svm", "examples/main_hpo_bench.py:rf"]}
{"id": "C119", "title": "an ICE object is the sequence of its curves", "statement": "Iterating an ICE (list(ice), for curve in ice) yields len(ice) curves, in the order of the samples, curve k being ice[k] with its row of x_ice, y_ice and y_variances; two curves compare equal only if they show the same values, and c in ice holds exactly if some curve of the ICE equals c.", "quantifier": "all surrogates, samples, grids, histories and curves", "why_tests_cant": "all inputs; equality of curves is generated code that no test of the repository calls", "anchors": ["pyPDP/algorithms/ice.py:ICE.__getitem__", "pyPDP/algorithms/ice.py:ICE.__len__", "pyPDP/algorithms/ice.py:ICECurve.__init__"]}
{"id": "C120", "title": "What the legends list", "statement": "Over one hyperparameter every plot method puts one entry into the legend per thing it shows, with the thing that was drawn: plot_function the curve, with the name of the function; plot_values of a curve, a PDP or a region one line with its name; plot_confidences of a curve, a PDP, a region or a surrogate the lower lines of one and of two standard deviations, with the name and the factor in the label; plot_1D_confidence_lines the means (if 0 is among the factors) and then the lower line of every other factor, in increasing order; ICE.plot one entry ICE for all its lines; Sampler.plot its points, with the given label or their number and the class; AcquisitionFunction.plot its curve and, if shown, the optimum. Over two hyperparameters only the points of a sampler are listed. The legend of plot_full_pdp lists the ICE curves, the PDP and its two confidence lines, in this order; the legend of plot_full_bayesian lists everything shown in the figure; different factors have different labels.", "quantifier": "all curves, functions, predictors, samplers, drawn candidates, axes that already have shapes and entries, factors (integers and other numbers), class names that may begin a label", "why_tests_cant": "labels are strings that no test of the repository compares; which axis plt.legend() acts on is visible only in the image", "anchors": ["pyPDP/utils/plotting.py:plot_1D_confidence_lines", "pyPDP/utils/plotting.py:plot_function", "pyPDP/algorithms/ice.py:ICECurve.plot_values", "pyPDP/algorithms/ice.py:ICECurve.plot_confidences", "pyPDP/algorithms/ice.py:ICE.plot", "pyPDP/algorithms/pdp.py:PDP.plot_values", "pyPDP/surrogate_models/__init__.py:SurrogateModel.plot_means", "pyPDP/sampler/__init__.py:Sampler.plot", "pyPDP/sampler/acquisition_function.py:AcquisitionFunction.plot", "pyPDP/utils/advanced_plots.py:plot_full_pdp", "pyPDP/utils/advanced_plots.py:plot_full_bayesian"]}
{"id": "C121", "title": "The progress bar of sample counts the recorded points", "statement": "sample(n, show_progress=True) records the same points with the same outcome as sample(n), provided the objective function has a __name__; otherwise it raises an AttributeError before anything is sampled. The bar is labelled Class(objective) and has total n. Whatever the outcome, at each update it shows exactly the number of configurations and of values the call has recorded by then; RandomSampler and GridSampler (and every point taken from the cache) update it once per point, BayesianOptimizationSampler counts the initial points in one update and every later point in one of its own. When the call returns normally the bar shows n and has been closed once. When the objective function raises, the bar is left open, and never shows more points than have values.", "quantifier": "all three sampler classes, all states, cache contents, n, objective functions that may raise at any call, surrogates whose fit may raise", "why_tests_cant": "all moments of a call, failures at any of them", "anchors": ["pyPDP/sampler/__init__.py:Sampler.sample", "pyPDP/sampler/__init__.py:Sampler.__str__", "pyPDP/sampler/random_sampler.py:RandomSampler._sample", "pyPDP/sampler/grid_sampler.py:GridSampler._sample", "pyPDP/sampler/bayesian_optimization.py:BayesianOptimizationSampler._sample", "pyPDP/utils/utils.py:ProgressDummy"]}
{"id": "C122", "title": "The decision tree does not depend on the order of the samples", "statement": "Partitioning the same samples in another order gives, for every depth, the same leaves in the same order: same split conditions, same depth, the same ICE curves in every leaf up to order, the same loss and partial dependence of every leaf; every configuration has its incumbent region in the corresponding leaf (or in none, or the call fails, for both trees alike); mean confidence and negative log-likelihood of every leaf agree.", "quantifier": "all configuration spaces, surrogates predicting row by row, lists of samples and permutations of them, selections of features, numbers of splitting values, minimal leaf sizes, depths >= 1", "why_tests_cant": "all permutations of all data sets", "anchors": ["pyPDP/algorithms/partitioner/decision_tree_partitioner.py:DecisionTreePartitioner.partition", "pyPDP/algorithms/partitioner/decision_tree_partitioner.py:DecisionTreePartitioner.calc_best_split", "pyPDP/algorithms/partitioner/decision_tree_partitioner.py:DecisionTreePartitioner.get_incumbent_region", "pyPDP/algorithms/partitioner/__init__.py:Region.loss"]}
{"id": "C123", "title": "The decision tree depends on the variances only up to a factor, and not on the means", "statement": "If a second surrogate has at every point a times the variance of the first one (a > 0) and any means, then on the same samples the tree has for every depth the same leaves in the same order, with the same conditions and the same points; the variances in them are a times, the losses a^2 times those of the first tree.", "quantifier": "all configuration spaces, pairs of surrogates as described, samples, features, numbers of splitting values, minimal leaf sizes, depths >= 1", "why_tests_cant": "all pairs of surrogates", "anchors": ["pyPDP/algorithms/partitioner/decision_tree_partitioner.py:DecisionTreePartitioner.partition", "pyPDP/algorithms/partitioner/decision_tree_partitioner.py:DecisionTreePartitioner.calc_best_split", "pyPDP/algorithms/partitioner/__init__.py:Region.loss"]}
{"id": "C124", "title": "The path of a Bayesian optimisation does not depend on the units of the objective", "statement": "Replacing the objective function f by a*f + b with a > 0 (and the exploration parameter eps of ExpectedImprovement and ProbabilityOfImprovement by a*eps, tau of LowerConfidenceBound staying as it is, cached values being converted) changes nothing but the units: in every sequence of calls of sample, reset, clear_cache, save_cache the same calls fail with the same errors, the same configurations are evaluated in the same order, the recorded values are the converted ones, the incumbent is the same configuration and the random generators end in the same state. After a sample call that returned, the surrogate's means are converted in the same way, its standard deviations multiplied by a (unchanged if all recorded values are equal), and a decision tree on the same samples has the same leaves.", "quantifier": "all a > 0 and b, objective functions that may raise at any call, acquisition functions of the package, directions, spaces, random draws, caches, histories, kernels found by the likelihood optimiser", "why_tests_cant": "all units, all histories", "anchors": ["pyPDP/sampler/bayesian_optimization.py:BayesianOptimizationSampler._sample", "pyPDP/sampler/bayesian_optimization.py:BayesianOptimizationSampler.fit_surrogate", "pyPDP/sampler/acquisition_function.py:ExpectedImprovement.__call__", "pyPDP/sampler/acquisition_function.py:ProbabilityOfImprovement.__call__", "pyPDP/sampler/acquisition_function.py:LowerConfidenceBound.__call__", "pyPDP/surrogate_models/sklearn_surrogates.py:GaussianProcessSurrogate.__init__", "pyPDP/sampler/__init__.py:Sampler.incumbent"]}
{"id": "C125", "title": "Maximising f evaluates the same points as minimising -f", "statement": "For ProbabilityOfImprovement and LowerConfidenceBound a sampler with minimize_objective=not m on -f behaves like one with minimize_objective=m on f: in every sequence of calls the same calls fail with the same errors, the same configurations are evaluated in the same order, the recorded values are negated, the incumbent is the same configuration and the random generators end in the same state.", "quantifier": "all objective functions that may raise at any call, spaces, random draws, caches, histories; optimisers of the likelihood whose result does not depend on the sign of the targets", "why_tests_cant": "all objective functions and histories", "anchors": ["pyPDP/sampler/bayesian_optimization.py:BayesianOptimizationSampler._sample", "pyPDP/sampler/acquisition_function.py:ProbabilityOfImprovement.__call__", "pyPDP/sampler/acquisition_function.py:LowerConfidenceBound.__call__", "pyPDP/surrogate_models/sklearn_surrogates.py:GaussianProcessSurrogate.__init__", "pyPDP/sampler/__init__.py:Sampler.incumbent"]}
{"id": "C126", "title": "How the acquisition functions reward uncertainty", "statement": "At equal predicted means a larger standard deviation gives a strictly larger ExpectedImprovement, which lies between the improvement max(eta - mean - eps, 0) of the mean and this plus sigma / sqrt(2 pi). It gives a strictly larger ProbabilityOfImprovement (below 1/2) if the mean does not reach the required value, a strictly smaller one (above 1/2) if the mean is better, and always 1/2 at the required value. It gives a larger LowerConfidenceBound exactly if tau > 0.", "quantifier": "all real means, incumbent values, exploration parameters and standard deviations, both directions", "why_tests_cant": "continuum of inputs", "anchors": ["pyPDP/sampler/acquisition_function.py:ExpectedImprovement.__call__", "pyPDP/sampler/acquisition_function.py:ProbabilityOfImprovement.__call__", "pyPDP/sampler/acquisition_function.py:LowerConfidenceBound.__call__"]}
{"id": "C127", "title": "On an additive surrogate all ICE curves are parallel and the PDP is the component", "statement": "If the surrogate's mean is a function of the selected hyperparameters plus a function of the other hyperparameters, the curves of an ICE object have the same differences between any two grid points; with centered=True all curves coincide; and y_pdp is the function of the selected hyperparameters at the grid points plus one constant, the average of the other function over the samples.", "quantifier": "all spaces, selections, samples, numbers of grid points, surrogates that predict row by row", "why_tests_cant": "all surrogates of this form", "anchors": ["pyPDP/algorithms/ice.py:ICE._calculate", "pyPDP/algorithms/pdp.py:PDP.y_pdp"]}
{"id": "C128", "title": "The PDP of random samples is an unbiased and consistent estimate of the partial dependence", "statement": "If the samples are drawn independently from one distribution, then at every grid point the expected value of y_pdp is, for every number of samples, the expected mean of the surrogate at a random configuration whose selected hyperparameters are set to the grid point; its variance is the variance of that mean divided by the number of samples; and for a growing number of samples y_pdp converges to that expectation almost surely, and y_variances to the expected variance of the surrogate.", "quantifier": "all distributions of the samples, spaces, selections, numbers of grid points, measurable surrogates with finite expectations", "why_tests_cant": "a statement about all distributions and about limits", "anchors": ["pyPDP/algorithms/pdp.py:PDP.y_pdp", "pyPDP/algorithms/pdp.py:PDP.y_variances", "pyPDP/algorithms/ice.py:ICE._calculate", "pyPDP/algorithms/__init__.py:Algorithm.from_random_points"]}
{"id": "C129", "title": "The PDP of a perfect surrogate of StyblinskiTang agrees with pd_integral", "statement": "If the mean of the surrogate is the StyblinskiTang function itself, then y_pdp, for any samples, differs from the function that pd_integral returns for the hyperparameters that are not selected by one constant, the same at all grid points; and for independent uniformly distributed samples on a space of float hyperparameters without log scale it converges to that function almost surely.", "quantifier": "all dimensions, bounds, selections, samples, numbers of grid points", "why_tests_cant": "all samples, and a limit", "anchors": ["pyPDP/blackbox_functions/synthetic_functions.py:StyblinskiTang.pd_integral", "pyPDP/blackbox_functions/synthetic_functions.py:StyblinskiTang.value_from_config", "pyPDP/algorithms/pdp.py:PDP.y_pdp"]}
{"id": "C130", "title": "The loss a tree removes is what its leaves' PDPs explain, and confidences average", "statement": "After partition(d), the loss of the root region equals the summed loss of the leaves plus, summed over the leaves, the number of curves of the leaf times the squared distance between the variances of the leaf's PDP and those of the root's PDP. The mean_confidence of the root is the average of the mean_confidence of the leaves weighted with their numbers of curves, so some leaf has a mean_confidence of at most, and some leaf one of at least, that of the root.", "quantifier": "all partitioners, depths, samples, surrogates", "why_tests_cant": "all trees and all samples; the identity holds exactly", "anchors": ["pyPDP/algorithms/partitioner/decision_tree_partitioner.py:DecisionTreePartitioner.partition", "pyPDP/algorithms/partitioner/__init__.py:Region.loss", "pyPDP/algorithms/partitioner/__init__.py:Region.pdp_as_ice_curve", "pyPDP/algorithms/partitioner/__init__.py:Region.mean_confidence"]}
{"id": "C131", "title": "ICE curves and PDP inherit linearity, error bounds and monotonicity from the surrogate", "statement": "y_pdp of a surrogate whose mean is a * m1 + b * m2 + c is a times that of m1 plus b times that of m2 plus c; if the means of two surrogates differ everywhere by a value between lo and hi, so do their PDPs at every grid point; if the mean does not fall when the selected hyperparameters rise, y_pdp and all curves (centered or not) do not fall either; if the mean does not depend on the selected hyperparameters, all curves are flat at the value of their sample (0 if centered) and y_pdp is the average of the mean over the samples.", "quantifier": "all spaces, selections, samples, numbers of grid points, surrogates that predict row by row", "why_tests_cant": "all surrogates and samples", "anchors": ["pyPDP/algorithms/ice.py:ICE._calculate", "pyPDP/algorithms/pdp.py:PDP.y_pdp"]}
{"id": "C132", "title": "The order of the selected hyperparameters only rearranges the grid", "statement": "If the same hyperparameters are selected in another order, every grid point of the one order is a grid point of the other (with its values rearranged), and y_pdp, y_variances and every ICE curve have the same values at corresponding grid points.", "quantifier": "all spaces, numbers of selected hyperparameters, orders, samples, numbers of grid points", "why_tests_cant": "all orders and dimensions", "anchors": ["pyPDP/algorithms/ice.py:ICE.grid_points", "pyPDP/algorithms/ice.py:ICE._calculate", "pyPDP/algorithms/pdp.py:PDP.y_pdp", "pyPDP/algorithms/pdp.py:PDP.y_variances"]}
{"id": "C133", "title": "Scaling stays in its interval whatever the rounding", "statement": "For arbitrary results of +, -, *, /, np.log and math.exp (rounding, overflow, nan) and comparisons that are total on numbers and false for nan: scale_float of a numerical hyperparameter returns nan or a number in [0, 1], and what unscale_float returns is nan or a number in [lower, upper].", "quantifier": "all arithmetics with ordinary comparisons, all numerical hyperparameters, all inputs", "why_tests_cant": "tests see one arithmetic and finitely many values", "anchors": ["pyPDP/utils/utils.py:scale_float", "pyPDP/utils/utils.py:unscale_float"]}
{"id": "C134", "title": "The guarantees of the tree do not depend on floating-point rounding", "statement": "For arbitrary computed losses and thresholds and comparisons that are total on numbers and false for nan: partition ends without an exception; it yields between 1 and 2^max_depth leaves, none deeper than max_depth, each with as many conditions as its depth; every leaf but the root has at least min_points_per_node curves; the curves of a leaf are unaltered curves of the root that satisfy its conditions in normalised units; no curve is in two leaves, and every curve is in one if there is no nan; no admissible split has a smaller computed loss than the one chosen; a configuration is contained in exactly one leaf, the one get_incumbent_region returns. (That this is the leaf with the configuration's own curve, C58, does depend on exact arithmetic; and a curve with a nan in a split feature ends up in no leaf.)", "quantifier": "all arithmetics with ordinary comparisons, all partitioners, depths, configurations", "why_tests_cant": "tests see one arithmetic and finitely many trees", "anchors": ["pyPDP/algorithms/partitioner/decision_tree_partitioner.py:DecisionTreePartitioner.partition", "pyPDP/algorithms/partitioner/decision_tree_partitioner.py:DecisionTreePartitioner.calc_best_split", "pyPDP/algorithms/partitioner/decision_tree_partitioner.py:DecisionTreePartitioner.get_incumbent_region", "pyPDP/algorithms/partitioner/decision_tree_partitioner.py:DTRegion.filter_by_condition", "pyPDP/algorithms/partitioner/decision_tree_partitioner.py:SplitCondition.is_satisfied"]}
{"id": "C135", "title": "Incumbents and optima in the presence of nan", "statement": "Whatever the arithmetic (comparisons total on numbers, false for nan): the incumbent of a sampler is the first best point if no objective value is nan, and otherwise the first point whose value is nan - from then on it never changes, however good the points sampled later. get_optimum and get_incumbent, which use the builtin max and min, return the first candidate if its value is nan, and otherwise the first best of the candidates whose value is a number.", "quantifier": "all samplers, all lists of values with and without nan, both directions, all later points", "why_tests_cant": "tests use objectives without nan", "anchors": ["pyPDP/sampler/__init__.py:Sampler.incumbent", "pyPDP/sampler/acquisition_function.py:AcquisitionFunction.get_optimum", "pyPDP/surrogate_models/__init__.py:SurrogateModel.get_incumbent"]}
{"id": "C136", "title": "GridSampler takes the full grid if there is one with n points", "statement": "If n is the d-th power of some m >= 2, the first sample(n) of a GridSampler on d float hyperparameters evaluates every point of the regular grid with m steps per axis exactly once - also with floating-point numbers (correctly rounded 1 / d and power). For any other n the number of steps is the smallest that gives at least n points.", "quantifier": "all numbers of hyperparameters, points and steps; every rounding to nearest", "why_tests_cant": "tests use few points in one or two dimensions", "anchors": ["pyPDP/sampler/grid_sampler.py:GridSampler._sample"]}
{"id": "C137", "title": "ICE curves do not depend on the number type of the samples", "statement": "ICE(..., samples=a) gives the same x_ice, y_ice and y_variances whether the same numbers are given as a float array or as an integer array: the selected features carry the grid points, all others the sample's own value.", "quantifier": "all spaces, selections, integer samples, grid sizes and surrogates", "why_tests_cant": "the tests draw their samples from the config space, which gives floats", "anchors": ["pyPDP/algorithms/ice.py:ICE._calculate"]}
{"id": "C138", "title": "Averages and losses keep their meaning with floating-point numbers", "statement": "With floating-point numbers, every value of y_pdp and y_variances (of a PDP or of a region) differs from the exact average over the n curves by at most n * 2^-52 times the average absolute value, in whatever order numpy adds; averaged variances and the loss of a region are never negative; x_pdp stays between 0 and 1 if x_ice does.", "quantifier": "all arrays of up to 2^53 curves, all correctly rounded operations (ties either way), all orders of the additions", "why_tests_cant": "tests compare with tolerances on a few arrays; the order of the additions depends on shape and memory layout", "anchors": ["pyPDP/algorithms/pdp.py:PDP.y_pdp", "pyPDP/algorithms/pdp.py:PDP.y_variances", "pyPDP/algorithms/pdp.py:PDP.x_pdp", "pyPDP/algorithms/partitioner/__init__.py:Region.loss", "pyPDP/algorithms/partitioner/__init__.py:Region.pdp_as_ice_curve"]}
{"id": "C139", "title": "Identical ICE curves have themselves as PDP and loss 0", "statement": "If all n curves of a PDP or a region are identical, the PDP is that curve exactly and the loss of the region is 0, also with floating-point numbers.", "quantifier": "all numbers of curves, all curves of doubles, all orders of the additions", "why_tests_cant": "needs the rounding error of sums", "anchors": ["pyPDP/algorithms/pdp.py:PDP.y_pdp", "pyPDP/algorithms/partitioner/__init__.py:Region.loss"]}
{"id": "C140", "title": "plot_function evaluates the function only within the bounds, also with floating-point numbers", "statement": "With floating-point numbers, get_uniform_distributed_ranges returns samples_per_axis values that all lie between lower and upper of the hyperparameter (the first is lower, the last is upper), so plot_function of a blackbox function over its own configuration space never evaluates an illegal value.", "quantifier": "all bounds (doubles), linear and logarithmic, all numbers of values up to 2^51, all correctly rounded operations (ties either way)", "why_tests_cant": "the end of a logarithmic range is the power of a rounded logarithm; whether it leaves the bounds depends on the last bit of the bounds", "anchors": ["pyPDP/utils/utils.py:get_uniform_distributed_ranges", "pyPDP/utils/plotting.py:plot_function"]}
{"id": "C141", "title": "The implied config space of a curve lies within the original bounds, also with floating-point numbers", "statement": "With floating-point numbers, ICECurve.implied_config_space of a curve with normalised points exists; each of its hyperparameters has the name of the original one and is a constant or a range of the same class within the original bounds; a hyperparameter along which the curve runs from 0 to 1 is unchanged.", "quantifier": "all spaces of numerical hyperparameters, all curves, all correctly rounded operations (ties either way)", "why_tests_cant": "whether a bound is exceeded depends on the last bit of the bounds", "anchors": ["pyPDP/algorithms/ice.py:ICECurve.implied_config_space", "pyPDP/utils/utils.py:unscale"]}
{"id": "C142", "title": "The configuration of a sample is in the leaf that holds its curve, also with floating-point numbers", "statement": "With floating-point numbers, after DecisionTreePartitioner.partition the configuration of a sample (its values in natural units) is contained in the leaf that holds the sample's ICE curve and in no other leaf, and get_incumbent_region returns this leaf.", "quantifier": "all spaces whose splittable hyperparameters are floats, all samples, thresholds, depths, all correctly rounded operations (ties either way), all orders of summation", "why_tests_cant": "a sample exactly at a threshold is put on one side by the vector and on the other by the value; which samples are affected depends on the last bit", "anchors": ["pyPDP/algorithms/partitioner/decision_tree_partitioner.py:DecisionTreePartitioner.partition", "pyPDP/algorithms/partitioner/decision_tree_partitioner.py:DTRegion.__contains__", "pyPDP/algorithms/partitioner/decision_tree_partitioner.py:SplitCondition.is_satisfied", "pyPDP/utils/utils.py:unscale_float"]}
{"id": "C143", "title": "Thresholds and plots of integer hyperparameters are displaced", "statement": "ConfigSpace writes an integer value v of the range l..u as (v-(l-h))/((u+h)-(l-h)), h = 0.49999, into a vector; this package converts with unscale_float between l and u. A threshold t of the tree therefore separates the values at unscale_float(t) + h(2t-1); a sample is on the same side in the vector and in natural units unless its value lies between the two. If no value is misplaced, the configuration of a sample is in exactly the leaf that holds its curve; with four or more values there are always thresholds at which one is misplaced.", "quantifier": "all linear integer ranges, all thresholds in [0,1], all values; all spaces of float and integer hyperparameters (also logarithmic), samples, depths", "why_tests_cant": "the displacement is less than half a unit and invisible unless threshold and value happen to lie in the gap", "anchors": ["pyPDP/algorithms/partitioner/decision_tree_partitioner.py:SplitCondition.is_satisfied", "pyPDP/algorithms/partitioner/decision_tree_partitioner.py:DTRegion.__contains__", "pyPDP/utils/utils.py:unscale_float", "pyPDP/utils/utils.py:unscale"]}
{"id": "C144", "title": "Optima of the synthetic functions, called as functions", "statement": "for_n_dimensions(d) of Square, NegativeSquare, Levy, Ackley and StyblinskiTang, and CrossInTray(), succeed and give a function of x1..xd on the documented default domain. Calling it with keyword arguments in any order: if each name is given with a number in the domain, the call returns a number that is not below the documented minimum (not above the maximum 1 of NegativeSquare) and equals it exactly if all arguments have the documented value (0, 0, 1, 0, -2.90353..., +-1.3494...); that call is legal, so the optimum is attained. Every other call raises ValueError. Without an argument a class is the function of one variable.", "quantifier": "all dimensions, all keyword arguments, all orders of the config space", "why_tests_cant": "a test evaluates a few points; a wrong default bound, a reordered coordinate or a wrong dimension count shows only at others", "anchors": ["pyPDP/blackbox_functions/__init__.py:BlackboxFunctionND.for_n_dimensions", "pyPDP/blackbox_functions/__init__.py:BlackboxFunctionND.__init__", "pyPDP/blackbox_functions/__init__.py:BlackboxFunction.__call__", "pyPDP/blackbox_functions/synthetic_functions.py:CrossInTray.__init__"]}
{"id": "C145", "title": "The text of a split condition states what it tests", "statement": "str(SplitCondition(cs, hp, value=v, less_equal=b)) is 'SplitCondition(name <= v)' or 'SplitCondition(name > v)' with v in natural units (also when it was given as normalized value), and the condition holds of exactly the configurations for which that comparison is true. Two such conditions with the same text (names without spaces) are satisfied by the same configurations. Without less_equal the text is '(value in name)' and the condition tests for that value.", "quantifier": "all numerical hyperparameters (also logarithmic), all values within the bounds, all configurations, all ways of writing numbers that distinguish them", "why_tests_cant": "the repository tests two texts; that equal texts mean equal conditions is a statement about all pairs", "anchors": ["pyPDP/algorithms/partitioner/decision_tree_partitioner.py:SplitCondition.__str__", "pyPDP/algorithms/partitioner/decision_tree_partitioner.py:SplitCondition.is_satisfied", "pyPDP/algorithms/partitioner/decision_tree_partitioner.py:SplitCondition.value"]}
{"id": "C146", "title": "scale_float and unscale_float are inverse, also with floating-point numbers", "statement": "With doubles, unscale_float(scale_float(v)) lies within the bounds and differs from v by at most 2^-49 times the larger absolute bound (linear hyperparameters). A condition SplitCondition(value=v, less_equal=b) therefore decides every configuration whose value is farther from v than that as the comparison with v does. The lower bound is reproduced exactly, and every value if the width of the range is a power of two.", "quantifier": "all linear ranges, all values within the bounds, all configurations, all correctly rounded arithmetics (ties either way)", "why_tests_cant": "the repository tests the values 3 and -1 between -5 and 5; other values are not reproduced", "anchors": ["pyPDP/utils/utils.py:scale_float", "pyPDP/utils/utils.py:unscale_float", "pyPDP/algorithms/partitioner/decision_tree_partitioner.py:SplitCondition.__init__", "pyPDP/algorithms/partitioner/decision_tree_partitioner.py:SplitCondition.is_satisfied"]}
{"id": "C147", "title": "the implied config spaces of the leaves tile the config space", "statement": "After partition() with min_points_per_node >= 1, implied_config_space of every leaf has a positive volume (product of upper - lower, on logarithmic axes of the difference of the logarithms), and the volumes of all leaves add up to the volume of the config space. As soon as there are two leaves, the implied space of every leaf is strictly smaller than the config space and differs from it.", "quantifier": "all numerical spaces, samples, surrogates, tree parameters and depths", "why_tests_cant": "test_implied_cs only checks that the implied space of single leaves differs from the original one", "anchors": ["pyPDP/algorithms/partitioner/decision_tree_partitioner.py:DTRegion.implied_config_space", "pyPDP/algorithms/partitioner/decision_tree_partitioner.py:DecisionTreePartitioner.partition"]}
{"id": "C148", "title": "a sampler records only points that the blackbox function accepts, whatever config space it draws from", "statement": "RandomSampler and BayesianOptimizationSampler accept a config_space that differs from the one of the blackbox function. After every history of calls, also when calls have raised, every recorded configuration is one on which f(**config) returns, and the recorded value is what it returns. RandomSampler.sample(n) (n >= 2, no cache) succeeds exactly if the function returns on every drawn configuration; the first one that is illegal for the function ends the call with a ValueError, with the configurations before it recorded and nothing else.", "quantifier": "all blackbox functions, config spaces, random draws, histories of calls", "why_tests_cant": "the tests always pass f.config_space to the sampler", "anchors": ["pyPDP/blackbox_functions/__init__.py:BlackboxFunction.__call__", "pyPDP/sampler/random_sampler.py:RandomSampler._sample", "pyPDP/sampler/bayesian_optimization.py:BayesianOptimizationSampler._sample", "pyPDP/sampler/__init__.py:Sampler.sample"]}
{"id": "C149", "title": "the ICE grid and the thresholds of the tree stay distinct, ordered and inside the unit interval with floating-point numbers", "statement": "With every operation of np.linspace rounded to the nearest double (any rule for ties) and at most 2^51 points per axis, the numbers of one axis of the grid start with exactly 0, end with exactly 1, are strictly increasing and differ from i/(g-1) by at most 2^-51. The grid of an ICE consists of g^k different points of the unit cube, exactly the tuples over the axis. The split candidates of a tree are num_splits_per_axis different numbers strictly between 0 and 1 in increasing order. The numbers are not always the doubles nearest to i/(g-1): with 11 points the eighth is 0.7000000000000001.", "quantifier": "all rounding functions to nearest, grid sizes up to 2^51, numbers of features", "why_tests_cant": "tests look at a grid of a few sizes and compare with a tolerance; duplicates by rounding would need sizes that no test can build", "anchors": ["pyPDP/algorithms/ice.py:ICE.grid_points", "pyPDP/algorithms/partitioner/decision_tree_partitioner.py:DecisionTreePartitioner.calc_best_split"]}
{"id": "C150", "title": "the losses that are computed for the leaves do not exceed the one that is computed for the root", "statement": "C56 says that the leaves of a tree together have no more loss than the root. This is false of the losses the program computes with floating-point numbers: four curves with the variance 0.1 everywhere, one with z = 0 and three with z > 1/2, give a root without loss and a leaf (of three curves) with one, for every order of the additions. What holds: a computed loss of n curves at P grid points with variances up to B differs from the exact one by at most 21 (nP)^2 B^2 2^-52 (if nP <= 2^50); the computed losses of the leaves exceed that of the root by at most twice that; the exact losses of these leaves do not exceed that of the root at all; and the split that is chosen is at most 60 (nP)^2 B^2 2^-52 worse, in exact arithmetic, than any other admissible split.", "quantifier": "all trees, depths, numbers of curves and grid points up to 2^50 entries, orders of summation, correctly rounded operations (ties to even for the counterexample only)", "why_tests_cant": "a test would have to compare losses without tolerance on inputs where every variance is equal, and error bounds for all sizes and orders of summation cannot be tested", "anchors": ["pyPDP/algorithms/partitioner/__init__.py:Region.loss", "pyPDP/algorithms/partitioner/decision_tree_partitioner.py:DecisionTreePartitioner.calc_best_split", "pyPDP/algorithms/partitioner/decision_tree_partitioner.py:DecisionTreePartitioner.partition"]}
{"id": "C151", "title": "an ICE owns its arrays", "statement": "Computing an ICE overwrites no array that existed before (samples, arrays of the surrogate, arrays of other ICE objects), and no later calculation overwrites its x_ice, y_ice and y_variances. True if the surrogate returns new arrays; then the values are those of C41-C43. False otherwise, because y_ice is the array of means that the surrogate returned, and centering subtracts in place: a surrogate that returns an array of its own predicts other means after a centered ICE; a surrogate that reuses its output array overwrites the y_ice (but not the y_variances) of earlier ICE objects; a surrogate that overwrites its argument alters x_ice exactly if there is a single sample, grid point or hyperparameter. For every surrogate: the argument of predict is never memory that existed before, and without centering nothing is overwritten after the prediction.", "quantifier": "all ICE objects, memories, samples, grids, and all behaviours of the surrogate on memory", "why_tests_cant": "the tests only use scikit-learn surrogates, which return new arrays; a test cannot show that nothing else in memory was altered", "anchors": ["pyPDP/algorithms/ice.py:ICE._calculate", "pyPDP/algorithms/__init__.py:Algorithm.__init__"]}
{"id": "C152", "title": "curves are views of their ICE, children of a region are copies", "statement": "ice[k] shows row k of the three arrays and shares its memory: writing into curve.y_ice (or curve.y_variances) replaces row k of ice.y_ice (ice.y_variances) and changes nothing else of the ICE. The root of a tree holds the arrays of the ICE themselves. The arrays of the children of a split hold the selected rows in new memory: writing into them changes no array that existed before, and writing into the ICE afterwards does not change them.", "quantifier": "all memories, ICE arrays, row numbers, masks, written values", "why_tests_cant": "aliasing is not visible in values; a test would have to write into every array and compare all others", "anchors": ["pyPDP/algorithms/ice.py:ICE.__getitem__", "pyPDP/algorithms/partitioner/decision_tree_partitioner.py:DTRegion.filter_by_condition", "pyPDP/algorithms/partitioner/decision_tree_partitioner.py:DecisionTreePartitioner.__init__"]}
{"id": "C153", "title": "ICE curves and PDPs agree across grids, selections and with the samples", "statement": "For a surrogate that predicts row by row: two grids over the same hyperparameters give the same y_pdp, y_variances and ICE values at every grid point they share, and all points of the coarser grid are shared if its number of intervals divides that of the finer grid; along a line of the grid of several hyperparameters, ICE curves, PDP and variances are those over the remaining hyperparameters of the samples moved to that line; an ICE curve passes through the prediction for its own sample; what a sample itself has for the selected hyperparameters does not matter; with all hyperparameters selected, every curve and the PDP are the surrogate on the grid.", "quantifier": "all spaces, surrogates that predict row by row, selections, samples and numbers of grid points", "why_tests_cant": "relations between results of different calls, for all grids and selections; the tests look at single calls", "anchors": ["pyPDP/algorithms/ice.py:ICE.grid_points", "pyPDP/algorithms/ice.py:ICE._calculate", "pyPDP/algorithms/pdp.py:PDP.y_pdp", "pyPDP/algorithms/pdp.py:PDP.y_variances"]}
{"id": "C154", "title": "Giving every sample equally often changes neither PDP nor tree", "statement": "If every sample is given k times, in any order, PDP and variances stay the same; the decision tree with k times the minimal number of points per node has the same leaves in the same order, each with the same conditions, k times its curves, k times its loss and the same PDP; every configuration has its incumbent region in the corresponding leaf.", "quantifier": "all spaces, surrogates that predict row by row, samples, k >= 1, orders, depths, numbers of splits and minimal numbers of points of at least 1", "why_tests_cant": "a relation between two runs for all multiplicities and orders; the tests never give a sample twice", "anchors": ["pyPDP/algorithms/pdp.py:PDP.y_pdp", "pyPDP/algorithms/pdp.py:PDP.y_variances", "pyPDP/algorithms/partitioner/decision_tree_partitioner.py:DecisionTreePartitioner.partition", "pyPDP/algorithms/partitioner/decision_tree_partitioner.py:DecisionTreePartitioner.get_incumbent_region", "pyPDP/algorithms/partitioner/__init__.py:Region.loss"]}
{"id": "C155", "title": "A forest whose trees see everything finds the region of the decision tree", "statement": "If every tree of a RandomForestPartitioner drew each sample exactly once (in any order) and all hyperparameters, then for every incumbent and every min_incumbent_overlap between 1 and the number of trees (or none given), get_incumbent_region returns the curves, in the same order, that get_incumbent_region of a DecisionTreePartitioner with 100 splits per axis and at least one point per node returns for the same samples and depth.", "quantifier": "all spaces of floats, surrogates that predict row by row, selections, samples, draws with all samples and hyperparameters, numbers of trees, depths, incumbents and overlaps from 1 to the number of trees", "why_tests_cant": "relates two partitioners for all draws of the random generator; the tests compare neither", "anchors": ["pyPDP/algorithms/partitioner/random_forest_partitioner.py:RandomForestPartitioner.partition", "pyPDP/algorithms/partitioner/random_forest_partitioner.py:RandomForestPartitioner.get_incumbent_region", "pyPDP/algorithms/partitioner/decision_tree_partitioner.py:DecisionTreePartitioner.get_incumbent_region"]}
{"id": "C156", "title": "A larger depth limit only cuts the incumbent region further, and from a known depth on changes nothing", "statement": "The incumbent region of a configuration in a deeper partition holds a sublist of the curves of its region in a shallower one, its conditions extend the old ones, and its implied config space lies within the old one on every axis. If no leaf is at the depth limit, or if one more level changes nothing, every larger limit gives the same leaves; with at least k >= 1 points per node this holds from depth n / k on (n samples), no leaf but the root is that deep, and there are at most n / k leaves.", "quantifier": "all trees, depth limits, configurations and minimal numbers of points", "why_tests_cant": "relates partitions of all depths; the tests use single fixed depths", "anchors": ["pyPDP/algorithms/partitioner/decision_tree_partitioner.py:DecisionTreePartitioner.partition", "pyPDP/algorithms/partitioner/decision_tree_partitioner.py:DecisionTreePartitioner.get_incumbent_region", "pyPDP/algorithms/partitioner/decision_tree_partitioner.py:DTRegion.implied_config_space"]}
{"id": "C157", "title": "How many samples a PDP needs, and how little a single sample matters", "statement": "If the samples are drawn independently from one distribution and, at each grid point, the surrogate's mean at them lies in a range of width w, then for every eps the probability that y_pdp of n samples is anywhere on the grid eps or more away from the partial dependence of the surrogate is at most 2 G exp(-2 n eps^2 / w^2), with G = num_grid_points_per_axis^(number of selected hyperparameters); likewise for y_variances with a bound c on the variances. Hence n >= w^2 log(2 G / delta) / (2 eps^2) samples are enough for all grid points at once, with probability 1 - delta. For any samples: exchanging one of n samples moves y_pdp by at most w / n at every grid point, adding one by at most w / (n + 1), where w bounds the differences of the surrogate's means that are exchanged or compared.", "quantifier": "all spaces, surrogates that predict row by row with bounded means, distributions, selections, grids, numbers of samples, eps and delta", "why_tests_cant": "a statement about the distribution of results over all random samples; tests draw one", "anchors": ["pyPDP/algorithms/pdp.py:PDP.y_pdp", "pyPDP/algorithms/pdp.py:PDP.y_variances", "pyPDP/algorithms/ice.py:ICE.y_ice"]}
{"id": "C158", "title": "analyze_openml_tasks lists every all-numeric task once, under its number of features", "statement": "For all dictionaries of tasks in which the number of features is given (or at least the number of numeric features is not -1), analyze_openml_tasks prints twenty headings, and below the i-th exactly the ids of the tasks with i features all of which are numeric, in the order of the dictionary; no id is printed twice. A task without features for which the number of numeric ones is missing counts as all-numeric. Otherwise the script stops with KeyError after the first heading.", "quantifier": "all dictionaries of tasks", "why_tests_cant": "the list of tasks is fetched from openml; there is no test", "anchors": ["examples/main_hpo_bench.py:analyze_openml_tasks"]}
{"id": "C159", "title": "The maximum mean discrepancy is a symmetric, unit-free comparison, and zero for a sampler's own points", "statement": "Exchanging samples and uniform points does not change the result of maximum_mean_discrepancy, nor does any map that multiplies all distances by the same factor (shifts, units, order of the hyperparameters). If both sides consist of the same points in any order, not all equal, it is exactly 0; if all samples are one point and all uniform points another, it is sqrt(2 - 2 exp(-1/2)) whatever their distance. The method compares the recorded configurations with m draws (by default as many as recorded) from a copy of the config space seeded with the given number; without samples or with fewer than two draws it raises ValueError. A RandomSampler whose generator was started with that number gets 0; giving both the same seed argument is that case exactly if the hash of the class is a multiple of 2^31.", "quantifier": "all point sets, maps, numbers of draws, generators and seeds", "why_tests_cant": "tests compare single values with thresholds; invariances are statements about pairs of runs", "anchors": ["pyPDP/sampler/__init__.py:Sampler.maximum_mean_discrepancy", "pyPDP/utils/utils.py:median_distance_between_points", "pyPDP/utils/utils.py:copy_config_space", "pyPDP/sampler/random_sampler.py:RandomSampler._sample"]}
{"id": "C160", "title": "Small errors of the variances do not change a tree whose splits were clearly the best", "statement": "If every split of a DecisionTreePartitioner's tree was better, by more than 8 eps (V + eps) per curve and grid point of its region, than every other admissible split that separates the curves differently, then every surrogate whose variances differ by at most eps (the original ones being at most V) leads to the same tree: the same leaves in the same order, with the same conditions and the same rows, and every configuration has the corresponding region as its incumbent region. The variances of the leaves differ by at most eps, their losses by at most 4 eps (V + eps) per curve and grid point.", "quantifier": "all config spaces, selections, samples, depths, surrogates and error bounds", "why_tests_cant": "a statement about all surrogates near a given one", "anchors": ["pyPDP/algorithms/partitioner/decision_tree_partitioner.py:DecisionTreePartitioner.partition", "pyPDP/algorithms/partitioner/decision_tree_partitioner.py:DecisionTreePartitioner.calc_best_split", "pyPDP/algorithms/partitioner/decision_tree_partitioner.py:DecisionTreePartitioner.get_incumbent_region", "pyPDP/algorithms/partitioner/__init__.py:Region.loss"]}
{"id": "C161", "title": "Computed with doubles, a tree whose splits were clearly the best is the tree of exact arithmetic", "statement": "Let a DecisionTreePartitioner have W curves at P grid points with variances of at most B, none of them within 2^-51 of a threshold. If every split of the tree of exact arithmetic was better, by more than 60 W P^2 B^2 2^-52 per curve of its region, than every admissible split that separates the curves differently, then the tree that is computed with doubles (rounded thresholds, rounded losses, any order of the additions) has the same leaves in the same order: they hold the same curves and have the same conditions up to 2^-51 in the thresholds. get_incumbent_region returns the corresponding leaf for every configuration whose values are not too near to a threshold, on linear and on logarithmic axes.", "quantifier": "all trees, depths, correctly rounded arithmetics and orders of summation", "why_tests_cant": "a statement about all roundings and all trees with clear splits", "anchors": ["pyPDP/algorithms/partitioner/decision_tree_partitioner.py:DecisionTreePartitioner.partition", "pyPDP/algorithms/partitioner/decision_tree_partitioner.py:DecisionTreePartitioner.calc_best_split", "pyPDP/algorithms/partitioner/decision_tree_partitioner.py:DecisionTreePartitioner.get_incumbent_region", "pyPDP/algorithms/partitioner/__init__.py:Region.loss", "pyPDP/utils/utils.py:unscale_float"]}
{"id": "C162", "title": "Plotting functions draw on the axis they are given, else on pyplot's current axis, and on no other", "statement": "Every plotting function of the library with an argument `ax` (curves, ICE, PDP, regions, trees, forests, surrogate models, samplers, acquisition functions and the helpers of utils/plotting.py) draws on the axis it is given, whether or not this is the current one; without an axis it draws on the current axis of the current figure, and only if there is none it opens a new axis, in a new figure only if there is no figure. All other axes, the figures and the choice of the current axis stay as they are, and functions called from a plotting function draw on the same axis. Hence plots called one after the other without an axis share one axis. An `ax` that is not an axis is an AssertionError and draws nothing. PDPs and regions compute their curve, and plot_1D_confidence_lines its standard deviations, before they look for an axis: if that fails, no figure is opened. plot_full_pdp, plot_full_bayesian and plot_2D_ICE_Curve_with_confidence draw on new axes of a new figure, which stays the current one; therefore, after plot_full_bayesian, plotting samples, a curve or the means of a surrogate over one hyperparameter without an axis is a ValueError (the current axis shows the acquisition function). A tree (forest) plotted without colours draws three numbers per leaf (tree) from the global generator of numpy, with colours none.", "quantifier": "all states of pyplot, all objects, all arguments", "why_tests_cant": "the tests draw into fresh figures and look at the pictures", "anchors": ["pyPDP/utils/plotting.py:get_ax", "pyPDP/utils/plotting.py:get_random_color", "pyPDP/utils/plotting.py:plot_1D_confidence_lines", "pyPDP/utils/plotting.py:plot_config_space", "pyPDP/algorithms/ice.py:ICECurve.plot_values", "pyPDP/algorithms/ice.py:ICECurve.plot_confidences", "pyPDP/algorithms/ice.py:ICE.plot", "pyPDP/algorithms/pdp.py:PDP.plot_values", "pyPDP/algorithms/partitioner/decision_tree_partitioner.py:DecisionTreePartitioner.plot", "pyPDP/algorithms/partitioner/decision_tree_partitioner.py:DecisionTreePartitioner.plot_incumbent_cs", "pyPDP/algorithms/partitioner/random_forest_partitioner.py:RandomForestPartitioner.plot_incumbent_regions", "pyPDP/surrogate_models/__init__.py:SurrogateModel.plot_confidences", "pyPDP/sampler/__init__.py:Sampler.plot", "pyPDP/utils/advanced_plots.py:plot_full_bayesian"]}
{"id": "C163", "title": "The tree does not depend on names, bounds, types and scales of the hyperparameters", "statement": "Two config spaces with the same number of hyperparameters, whose names, bounds, types (float, integer, categorical, ordinal) and scales (linear or logarithmic) differ: if a surrogate predicts row by row, the samples are the same normalised vectors, and the hyperparameters at the same positions are selected and excluded from splitting, then the second constructor succeeds when the first one does, both root regions hold the same arrays, and for every max_depth both trees have the same leaves in the same order, with the same curves and the same conditions on the hyperparameters at the same positions. Two configurations (numerical spaces, exact arithmetic) that give every hyperparameter a value at the same normalised position belong to corresponding leaves: get_incumbent_region finds a leaf for both, with the same curves and the same conditions.", "quantifier": "all pairs of config spaces of the same size, all samples, row-wise surrogates, selections, excluded hyperparameters, grid sizes, numbers of thresholds, depths and configurations", "why_tests_cant": "two spaces cannot be compared for all bounds and scales by running examples; the tests use one space per tree", "anchors": ["pyPDP/algorithms/partitioner/decision_tree_partitioner.py:DecisionTreePartitioner.__init__", "pyPDP/algorithms/partitioner/decision_tree_partitioner.py:DecisionTreePartitioner.partition", "pyPDP/algorithms/partitioner/decision_tree_partitioner.py:DecisionTreePartitioner.calc_best_split", "pyPDP/algorithms/partitioner/decision_tree_partitioner.py:DecisionTreePartitioner.get_incumbent_region", "pyPDP/algorithms/partitioner/decision_tree_partitioner.py:SplitCondition.is_satisfied", "pyPDP/algorithms/ice.py:ICE._calculate"]}
{"id": "C164", "title": "More freedom to split never makes the tree worse", "statement": "Two partitioners of the same samples and surrogate: the thresholds of the first are among those of the second, the second allows smaller regions (min_points_per_node) or excludes fewer hyperparameters. One would expect that the leaves of the second have together no more loss at the same max_depth. This is false, because the tree is grown greedily: for depth 2 there are examples where three thresholds instead of one, regions of one curve instead of two, and one hyperparameter more to split on each make the total loss larger. What holds: the second tree, at every depth, has no more loss than the first one at depth 1.", "quantifier": "all spaces, surrogates, samples, settings and depths", "why_tests_cant": "needs the comparison of all pairs of settings; the effect of greedy choices appears only for particular data", "anchors": ["pyPDP/algorithms/partitioner/decision_tree_partitioner.py:DecisionTreePartitioner.calc_best_split", "pyPDP/algorithms/partitioner/decision_tree_partitioner.py:DecisionTreePartitioner.partition", "pyPDP/algorithms/partitioner/decision_tree_partitioner.py:DecisionTreePartitioner.__init__"]}
{"id": "C165", "title": "If the variance is a sum, the tree does not depend on the grid and is the regression tree of one summand", "statement": "If the surrogate predicts row by row and its variance is a function u of the selected hyperparameters plus a function w of the others, then for any two values of num_grid_points_per_axis and every max_depth the trees have the same leaves in the same order: the same conditions, the curves of the same samples, and the same answers of get_incumbent_region. The loss of every leaf is the number of grid points times the sum of the squared deviations of w from its mean over the leaf's samples, so the splits are those of a regression tree for w.", "quantifier": "all spaces, samples, row-wise surrogates with additive variance, settings, pairs of grid sizes, depths and configurations", "why_tests_cant": "quantifies over grids and surrogates; the tests use one grid per example", "anchors": ["pyPDP/algorithms/partitioner/decision_tree_partitioner.py:DecisionTreePartitioner.partition", "pyPDP/algorithms/partitioner/decision_tree_partitioner.py:DecisionTreePartitioner.calc_best_split", "pyPDP/algorithms/partitioner/__init__.py:Region.loss", "pyPDP/algorithms/ice.py:ICE._calculate", "pyPDP/algorithms/partitioner/decision_tree_partitioner.py:DecisionTreePartitioner.get_incumbent_region"]}
{"id": "C166", "title": "The forest and its region keep their samples under rescaled or slightly wrong variances", "statement": "Take two surrogates that predict row by row, the same samples and options, and the same random draws for partition. If the variances differ by one positive factor, the trees of the two forests may be split along the same hyperparameters, their leaves have the same conditions and the same samples in the same order, and get_incumbent_region of the two forests holds the curves of the same samples for every configuration and every required overlap; the means do not matter. The same holds if the variances differ by at most eps, provided that every split of every tree of the first forest was better than its competitors by more than the error that eps can cause.", "quantifier": "all numerical spaces, samples, pairs of row-wise surrogates, draws, tree counts, depths, sample sizes, configurations and overlaps", "why_tests_cant": "compares executions for pairs of surrogates over all draws; the tests grow one forest per example and do not look at its regions", "anchors": ["pyPDP/algorithms/partitioner/random_forest_partitioner.py:RandomForestPartitioner.partition", "pyPDP/algorithms/partitioner/random_forest_partitioner.py:RandomForestPartitioner.get_incumbent_region", "pyPDP/algorithms/partitioner/decision_tree_partitioner.py:DecisionTreePartitioner.calc_best_split", "pyPDP/algorithms/partitioner/__init__.py:Region.loss"]}
{"id": "C167", "title": "Hyperparameters that the surrogate ignores and that are neither selected nor split might as well not exist", "statement": "Take a config space with hyperparameters that are not selected and listed in not_splittable_hp, and a surrogate whose predictions are those of another surrogate on the remaining entries of a row. In the config space without these hyperparameters, with the shortened samples and the other surrogate, PDP has the same means and variances, and for every max_depth the decision tree has the same leaves in the same order, with the same conditions, means and variances and the shortened vectors; get_incumbent_region answers with the same region for configurations that agree on the remaining hyperparameters. If such a hyperparameter may be split, this fails: the tree may split along it first although the surrogate ignores it.", "quantifier": "all spaces, subsets of hyperparameters, row-wise surrogates, samples, settings, depths and configurations", "why_tests_cant": "relates executions in two different config spaces for all surrogates; the tests never compare spaces", "anchors": ["pyPDP/algorithms/partitioner/__init__.py:Partitioner.__init__", "pyPDP/algorithms/partitioner/decision_tree_partitioner.py:DecisionTreePartitioner.partition", "pyPDP/algorithms/partitioner/decision_tree_partitioner.py:DecisionTreePartitioner.calc_best_split", "pyPDP/algorithms/partitioner/decision_tree_partitioner.py:DecisionTreePartitioner.get_incumbent_region", "pyPDP/algorithms/ice.py:ICE._calculate", "pyPDP/algorithms/pdp.py:PDP.y_pdp"]}
{"id": "C168", "title": "Reordering the hyperparameters or turning an axis around does not change how the tree divides the samples", "statement": "Take a second config space with the same hyperparameters in another order (names, bounds and types may differ as well) and with some not selected axes turned around, so that a normalised value v becomes 1 - v; the samples are the same up to this, the surrogate predicts the same, the corresponding hyperparameters are selected and excluded from splitting. PDP then has the same means and variances at the same grid points. If every split of the first tree was the only best way to divide its region and no sample lies on a threshold of a turned axis, then for every max_depth the second tree divides the samples in the same way: up to the order of the leaves, they hold the same samples, means and variances (the thresholds may differ). Both conditions are needed: a sample on a threshold always goes to the lower side, and among equally good splits the first one is taken.", "quantifier": "all pairs of config spaces, permutations, sets of turned axes, samples, row-wise surrogates, settings and depths", "why_tests_cant": "relates executions in two different config spaces for all surrogates and samples; the exceptions concern samples exactly on a threshold and ties", "anchors": ["pyPDP/algorithms/partitioner/__init__.py:Partitioner.__init__", "pyPDP/algorithms/partitioner/decision_tree_partitioner.py:DecisionTreePartitioner.partition", "pyPDP/algorithms/partitioner/decision_tree_partitioner.py:DecisionTreePartitioner.calc_best_split", "pyPDP/algorithms/ice.py:ICE._calculate", "pyPDP/algorithms/pdp.py:PDP.y_pdp"]}
{"id": "C169", "title": "The tree separates two groups of samples with different variances; without any such groups it splits at the first threshold", "statement": "Suppose the samples fall into two groups, told apart by the other hyperparameters, and two configurations with the same values of the selected hyperparameters have the same variance exactly if they belong to the same group. If one of the thresholds of the tree separates the groups (with at least min_points_per_node >= 1 samples in each), then for every max_depth every leaf has loss 0 and holds samples of one group only, and with max_depth = 1 the two leaves are the two groups, whatever other hyperparameters and thresholds exist. If on the other hand the variance depends on the selected hyperparameters only, all regions have loss 0 and the tree is the same for every such surrogate; it still splits, with max_depth = 1 at the first threshold of the first splittable hyperparameter that leaves enough samples on both sides.", "quantifier": "all config spaces, row-wise surrogates, groups, samples, settings and depths", "why_tests_cant": "a statement about what the search finds for all surrogates of a kind, including those for which no split is of any use", "anchors": ["pyPDP/algorithms/partitioner/decision_tree_partitioner.py:DecisionTreePartitioner.partition", "pyPDP/algorithms/partitioner/decision_tree_partitioner.py:DecisionTreePartitioner.calc_best_split", "pyPDP/algorithms/partitioner/__init__.py:Region.loss"]}
{"id": "C170", "title": "How good the incumbent of a random search is", "statement": "If the configurations a RandomSampler draws are independent and come from one distribution, then after any sequence of sample calls with N points in total the probability that the incumbent does not reach a value v is exactly the N-th power of the probability that a single configuration does not reach it (for 'better than v' and for 'at least as good as v', for minimisation and maximisation). Hence log(1/delta)/p points are enough to beat, with probability 1 - delta, every value that a single configuration beats with probability p; and in the long run every value that can be beaten with positive probability is beaten, almost surely.", "quantifier": "all distributions of configurations, measurable objectives that return normally, values, sequences of calls with at least two points each", "why_tests_cant": "a statement about the distribution of the outcome over all random runs; tests see single runs", "anchors": ["pyPDP/sampler/random_sampler.py:RandomSampler._sample", "pyPDP/sampler/__init__.py:Sampler.sample", "pyPDP/sampler/__init__.py:Sampler.incumbent"]}
{"id": "C171", "title": "How good the incumbent of a grid search is", "statement": "After the first sample(m^d) of a GridSampler on d float hyperparameters (m >= 2; also with floating-point roots for d <= 4), no configuration of the whole config space is better than the incumbent by more than the objective changes between configurations whose normalised positions (logarithmic ones on logarithmic axes) differ by at most 1/(2(m-1)) in each hyperparameter. For an objective with Lipschitz constant L with respect to the normalised positions the incumbent is thus within L/(2(m-1)) of the optimum. With fewer points than the grid has, some grid point has not been evaluated.", "quantifier": "all config spaces of float hyperparameters, shuffles, numbers of steps, objectives that return normally, both directions", "why_tests_cant": "a bound on the distance to the optimum over the whole continuous space", "anchors": ["pyPDP/sampler/grid_sampler.py:GridSampler._sample", "pyPDP/sampler/__init__.py:Sampler.incumbent"]}
{"id": "C172", "title": "The confidence band of a PDP is on the safe side", "statement": "If the surrogate's predictions are the mean and standard deviation of an unknown random function at every vector, then at every grid point y_pdp is the expected partial dependence of that function over the samples, and the variance of that partial dependence is at most y_variances, however the values at different vectors depend on each other. It equals y_variances when all deviations are the same, and is y_variances / n when they are uncorrelated. Hence the partial dependence lies at least k reported standard deviations away from y_pdp with probability at most 1/k^2.", "quantifier": "all probability spaces and random functions with second moments, row-wise surrogates, config spaces, selections, samples, grids, k > 0", "why_tests_cant": "a statement about the joint distribution of an unknown function, over all dependence structures", "anchors": ["pyPDP/algorithms/pdp.py:PDP.y_variances", "pyPDP/algorithms/pdp.py:PDP.y_pdp"]}
{"id": "C173", "title": "How good random candidates make the acquired point, the surrogate's incumbent and a Bayesian optimisation", "statement": "If the candidates are drawn independently from one distribution, the probability that the acquisition value of get_optimum's result is at most v is exactly the n-th power of the probability for a single candidate (n = samples_for_optimization >= 2); the same holds for the predicted mean of SurrogateModel.get_incumbent. After a first successful call of a Bayesian optimisation no point of its initial design is ever better than the incumbent, whatever is sampled later; hence the probability that the incumbent misses a value is at most that of a random search with the initial points.", "quantifier": "all distributions, measurable acquisition values, surrogates, objectives, numbers of candidates, later call sequences without reset", "why_tests_cant": "statements about the distribution over all random runs and about all later runs", "anchors": ["pyPDP/sampler/acquisition_function.py:AcquisitionFunction.get_optimum", "pyPDP/surrogate_models/__init__.py:SurrogateModel.get_incumbent", "pyPDP/sampler/bayesian_optimization.py:BayesianOptimizationSampler._sample", "pyPDP/sampler/__init__.py:Sampler.incumbent"]}
{"id": "C174", "title": "What the negative log-likelihood says about the variances, and how it and delta_nll depend on the units", "statement": "The negative log-likelihood of a region is the average over the grid of (log(2 pi v) + error^2 / v) / 2, with v the mean variance there. For a given mean curve that is nowhere exact it is smallest exactly if v is the squared error at every grid point. If the objective is measured in other units (factor a, any shift), it grows by log|a| for every region, so differences between regions are kept. delta_nll keeps its sign but not its value: for a region better than the full one, every positive number is the value of delta_nll in some units, and in some units it is undefined.", "quantifier": "all regions with positive mean variances, true functions with an exact partial dependence, units", "why_tests_cant": "relates infinitely many rescaled inputs; a test has one unit", "anchors": ["pyPDP/algorithms/partitioner/__init__.py:Region.negative_log_likelihood", "pyPDP/algorithms/partitioner/__init__.py:Region.delta_nll", "pyPDP/utils/utils.py:calculate_log_delta"]}
{"id": "C175", "title": "What the standard deviations of the Gaussian process surrogate mean, and how they depend on the distance to the evaluated points", "statement": "After fit, the mean predicted for a row is the average of the targets plus a weighted sum of their deviations from it; in units of the standard deviation of the targets the squared predicted standard deviation is the mean squared error of these weights under the chosen kernel (with measurement errors of variance 1e-8), and no other weights have a smaller error. Hence it is at most what the correlation with any single training point leaves. With the default Matern kernel of length scale l, a row at standardised distance D from a training point has a standard deviation of at most spread * sqrt(3 (D/l)^2 + 1e-8), and a PDP all of whose vectors are within D of evaluated points has y_variances of at most spread^2 * (3 (D/l)^2 + 1e-8). More data that leaves the standardisation and the kernel alone never makes it less certain; in particular evaluating every point twice does not.", "quantifier": "all training data, kernels that are covariance functions, length scales, rows, weights, grids and samples", "why_tests_cant": "optimality over all weights and a bound for all data sets, distances and length scales; a test compares a few numbers of one fit", "anchors": ["pyPDP/surrogate_models/sklearn_surrogates.py:GaussianProcessSurrogate.__init__", "pyPDP/surrogate_models/sklearn_surrogates.py:SkLearnPipelineSurrogate.predict", "pyPDP/surrogate_models/sklearn_surrogates.py:SkLearnPipelineSurrogate._fit", "pyPDP/algorithms/pdp.py:PDP.y_variances"]}
{"id": "C176", "title": "How fast predictions of the Gaussian process surrogate and its PDPs can change", "statement": "After fit, the standard deviations predicted for two rows differ by at most spread(targets) times the kernel distance sqrt(k(a,a) - 2k(a,b) + k(b,b)) of the standardised rows, the means by at most 10^4 sqrt(n) times that (n training points). With the default Matern kernel of length scale l the kernel distance is at most sqrt(3) D / l for rows at standardised distance D, so neither means nor standard deviations jump. For a PDP over one hyperparameter two points whose grid values differ by D have y_pdp within 10^4 sqrt(n) spread sqrt(3) D / (l * standard deviation of the column) and roots of y_variances within spread sqrt(3) D / (l * standard deviation of the column).", "quantifier": "all training data, kernels that are covariance functions, length scales, pairs of rows, samples and grid points", "why_tests_cant": "a bound for every pair of inputs and every data set; a test sees finitely many predictions", "anchors": ["pyPDP/surrogate_models/sklearn_surrogates.py:GaussianProcessSurrogate.__init__", "pyPDP/surrogate_models/sklearn_surrogates.py:SkLearnPipelineSurrogate.predict", "pyPDP/surrogate_models/sklearn_surrogates.py:SkLearnPipelineSurrogate._fit", "pyPDP/algorithms/pdp.py:PDP.y_pdp", "pyPDP/algorithms/pdp.py:PDP.y_variances"]}
{"id": "C177", "title": "How fast acquisition values can change, and what is lost by searching among random candidates", "statement": "The value of LowerConfidenceBound changes by at most |change of mean| + |tau| |change of sigma|, that of ExpectedImprovement by at most |change of mean| + |change of sigma| / sqrt(2 pi) between predictions with positive sigma, that of ProbabilityOfImprovement at fixed sigma by at most |change of mean| / (sigma sqrt(2 pi)). At sigma = 0 the last two jump to 0, even if the mean is better than the incumbent. With the default Gaussian process surrogate get_optimum (with at least two candidates) therefore returns a candidate whose acquisition value is at most spread * (10^4 sqrt(n) + b) * sqrt(3) D / l below that of any configuration with a candidate within standardised distance D (b = |tau| or 1/sqrt(2 pi); n training points, length scale l).", "quantifier": "all predictions, parameters, training data, length scales, draws of candidates, configurations", "why_tests_cant": "a bound for every pair of predictions and every set of candidates; a test compares a few values", "anchors": ["pyPDP/sampler/acquisition_function.py:ExpectedImprovement.__call__", "pyPDP/sampler/acquisition_function.py:ProbabilityOfImprovement.__call__", "pyPDP/sampler/acquisition_function.py:LowerConfidenceBound.__call__", "pyPDP/sampler/acquisition_function.py:AcquisitionFunction.get_optimum"]}
{"id": "C178", "title": "With a fixed kernel the Gaussian process surrogate and its PDPs are linear in the evaluated values", "statement": "For a fixed kernel and fixed training points: a surrogate fitted to the targets a*y1 + b*y2 predicts a times the mean of the surrogate fitted to y1 plus b times that of the one fitted to y2, at every row, although targets are centred and scaled before the fit; its standard deviations depend on the targets only through the factor spread(targets). Likewise y_pdp is linear in the targets and y_variances / spread^2 does not depend on them. Errors of measured values are hardly amplified: the sum of the squared changes of the predictions at the training points is at most twice that of the targets.", "quantifier": "all kernels that are covariance functions, training points, pairs of target lists, coefficients, rows, samples and grids", "why_tests_cant": "an identity between fits to all combinations of targets; a test has a few target lists", "anchors": ["pyPDP/surrogate_models/sklearn_surrogates.py:GaussianProcessSurrogate.__init__", "pyPDP/surrogate_models/sklearn_surrogates.py:SkLearnPipelineSurrogate.predict", "pyPDP/surrogate_models/sklearn_surrogates.py:SkLearnPipelineSurrogate._fit", "pyPDP/algorithms/pdp.py:PDP.y_pdp", "pyPDP/algorithms/pdp.py:PDP.y_variances"]}
{"id": "C179", "title": "For objectives that the kernel can represent, the confidence band of the Gaussian process surrogate contains the truth", "statement": "Let the evaluated values be exactly those of an objective f, and let f minus the mean of the targets, divided by their spread, be a combination sum a_j k(., p_j) of the kernel of the fitted surrogate with norm B (in the Hilbert space of the kernel). Then at every row |mean - f| <= B * standard deviation; every point of a PDP differs from the true partial dependence (the average of f itself) by at most B * sqrt(y_variances), so a band of at least B standard deviations contains the true curve; and with a lower confidence bound with tau >= B the candidate that get_optimum picks has a value of f that exceeds that of the best candidate by at most 2 tau times the predicted standard deviation at the pick. The condition is not empty: with the default kernel every objective is such a combination at any finite number of rows, for some B.", "quantifier": "all kernels that are covariance functions, training points, representable objectives (any number of centres and coefficients), rows, samples, grids, candidates", "why_tests_cant": "a statement about the unknown objective for a whole function space; tests know the objective only at a few points", "anchors": ["pyPDP/surrogate_models/sklearn_surrogates.py:GaussianProcessSurrogate.__init__", "pyPDP/surrogate_models/sklearn_surrogates.py:SkLearnPipelineSurrogate.predict", "pyPDP/surrogate_models/sklearn_surrogates.py:SkLearnPipelineSurrogate._fit", "pyPDP/algorithms/pdp.py:PDP.y_pdp", "pyPDP/algorithms/pdp.py:PDP.y_variances", "pyPDP/sampler/acquisition_function.py:LowerConfidenceBound.__call__", "pyPDP/sampler/acquisition_function.py:AcquisitionFunction.get_optimum"]}
{"id": "C180", "title": "A Bayesian optimisation that returns to an evaluated point has nearly found the best candidate, and it must return", "statement": "Bayesian optimisation with the default kernel and a lower confidence bound whose tau is at least the norm of the objective in the space of the kernel: if an acquired point is at standardised distance at most delta from an evaluated one, then no candidate of that step is better by more than 2 tau * spread * sqrt(3 (delta / length scale)^2 + 1e-8). In the unit cube with d axes this must happen: among more than M^d points two differ by at most 1/M on every axis, so after M^d acquired points the incumbent is worse than the best candidate of some step by at most the bound for delta = sqrt(d) / (M * w), where w bounds the standard deviations of the columns. The condition on tau can be met: if the drawn configurations are among finitely many, it holds from some tau on for all runs of a given length, because the matrix of the default kernel at different points is positive definite and so every objective is a combination of the kernel at finitely many rows.", "quantifier": "all dimensions, length scales, objectives, samplers with any random states, numbers of candidates and initial points, runs of any length", "why_tests_cant": "a guarantee about a whole optimisation of an unknown objective; tests run a few optimisations with known optimum", "anchors": ["pyPDP/sampler/bayesian_optimization.py:BayesianOptimizationSampler._sample", "pyPDP/sampler/acquisition_function.py:LowerConfidenceBound.__call__", "pyPDP/sampler/acquisition_function.py:AcquisitionFunction.get_optimum", "pyPDP/surrogate_models/sklearn_surrogates.py:GaussianProcessSurrogate.__init__", "pyPDP/surrogate_models/sklearn_surrogates.py:SkLearnPipelineSurrogate._fit", "pyPDP/sampler/__init__.py:Sampler.incumbent"]}
{"id": "C181", "title": "Expected improvement is the true improvement up to the prediction error, and optimising it finds a nearly best candidate", "statement": "Let the surrogate predict mean m and standard deviation sigma > 0 at a point with true value f, |m - f| <= B sigma, and let gain z be the mean of max(z - t, 0) for standard normal t. Then the true improvement max(eta - eps - f, 0) is at most 1 + B / gain(-B) times the expected improvement, and the expected improvement is at most the true improvement plus sigma * gain B. For the Gaussian process surrogate and an objective with norm at most B this holds at all candidates, so if the chosen candidate has a small expected improvement then no candidate improves by more than eps plus 1 + B / gain(-B) times that. A Bayesian optimisation in the unit cube with d axes, default kernel and expected improvement that has acquired M^d + k points has an incumbent worse than the best candidate of some step by at most eps + (1 + B / gain(-B)) (D / k + gain B * Y * sqrt(3 (sqrt d / (M w L))^2 + 1e-8)), where D is the range of the objective and w, L, Y bound the standard deviations of the columns, the length scales and the standard deviations of the values.", "quantifier": "all means, deviations, incumbents, eps >= 0 for the run, dimensions, length scales, objectives, samplers with any random states, numbers of candidates and initial points, runs of any length", "why_tests_cant": "a guarantee about whole optimisations of unknown objectives, with an integral over the normal distribution", "anchors": ["pyPDP/sampler/acquisition_function.py:ExpectedImprovement.__call__", "pyPDP/sampler/acquisition_function.py:AcquisitionFunction.get_optimum", "pyPDP/sampler/bayesian_optimization.py:BayesianOptimizationSampler._sample", "pyPDP/surrogate_models/sklearn_surrogates.py:GaussianProcessSurrogate.__init__", "pyPDP/sampler/__init__.py:Sampler.incumbent"]}
{"id": "C182", "title": "With a positive eps, optimising probability of improvement finds a candidate within eps of the best", "statement": "If the surrogate's means at two points are off by at most B standard deviations, the chosen point improves upon the incumbent's value by at most theta and its standard deviation sigma satisfies theta + 2 B sigma <= eps, then a point with no larger probability of improvement does not improve by more than eps. So in a Bayesian optimisation with the Gaussian process surrogate, default kernel and probability of improvement, an acquired point close to an evaluated one that hardly improves shows that no candidate of the step improves by more than eps. A run in the unit cube with d axes that has acquired M^d + k points, with D / k + 2 B Y sqrt(3 (sqrt d / (M w L))^2 + 1e-8) <= eps (D the range of the objective, B its norm, w, L, Y as in C181), has an incumbent worse than the best candidate of some step by at most eps. Without exploration (eps = 0) a point that surely does not improve can be preferred to one that improves by 1.", "quantifier": "all means, deviations, incumbents, eps, dimensions, length scales, objectives, samplers with any random states, numbers of candidates and initial points, runs of any length", "why_tests_cant": "a guarantee about whole optimisations of unknown objectives", "anchors": ["pyPDP/sampler/acquisition_function.py:ProbabilityOfImprovement.__call__", "pyPDP/sampler/acquisition_function.py:AcquisitionFunction.get_optimum", "pyPDP/sampler/bayesian_optimization.py:BayesianOptimizationSampler._sample", "pyPDP/surrogate_models/sklearn_surrogates.py:GaussianProcessSurrogate.__init__", "pyPDP/sampler/__init__.py:Sampler.incumbent"]}
{"id": "C183", "title": "One value far from the others takes over the Gaussian process surrogate", "statement": "With a fixed kernel of variance 1: if one of at least two evaluated values is far enough from 0 (a penalty for a failed evaluation, say), all predicted standard deviations at given rows exceed any given bound. So a further evaluation anywhere can make the surrogate less certain at every given row. With the i-th value v the confidence bound of a row (mean and tau standard deviations, for minimisation or maximisation) is v times the confidence bound of the surrogate fitted to a 1 at this point and 0 at all others, up to an error of at most |mean| + |tau| * std predicted with 0 in place of v. So if v is large enough, the configuration that LowerConfidenceBound chooses among its candidates maximises the confidence bound of that surrogate: the other evaluated values no longer matter.", "quantifier": "all training data with two or more points, covariance kernels (of variance 1 for the standard deviations), positions of the value, rows, tau, candidates, random states", "why_tests_cant": "statement about arbitrarily large values and all data; tests fit a few data sets of similar values", "anchors": ["pyPDP/surrogate_models/sklearn_surrogates.py:GaussianProcessSurrogate.__init__", "pyPDP/surrogate_models/sklearn_surrogates.py:SkLearnPipelineSurrogate._fit", "pyPDP/surrogate_models/sklearn_surrogates.py:SkLearnPipelineSurrogate.predict", "pyPDP/sampler/acquisition_function.py:LowerConfidenceBound.__call__", "pyPDP/sampler/acquisition_function.py:AcquisitionFunction.get_optimum"]}
{"id": "C184", "title": "Computed with doubles, a forest whose splits were clearly the best is the forest of exact arithmetic", "statement": "Let every tree of a RandomForestPartitioner have S samples at P grid points with variances of at most B, no sample within 2^-51 of a threshold. If every split of every tree of exact arithmetic was better, by more than 60 S P^2 B^2 2^-52 per curve of its region, than every admissible split that separates the curves differently, then the forest that is computed with doubles from the same draws (rounded thresholds, rounded losses, any order of the additions) has as many trees, which may be split along the same hyperparameters and have the same leaves in the same order: they hold the same curves and have the same conditions up to 2^-51 in the thresholds. get_incumbent_region of both forests is the very same region, for every required overlap and every incumbent, if neither the incumbent nor a sample is too near to a threshold.", "quantifier": "all forests, draws, depths, correctly rounded arithmetics and orders of summation, incumbents, overlaps", "why_tests_cant": "a statement about all roundings and all forests with clear splits", "anchors": ["pyPDP/algorithms/partitioner/random_forest_partitioner.py:RandomForestPartitioner.partition", "pyPDP/algorithms/partitioner/random_forest_partitioner.py:RandomForestPartitioner.get_incumbent_region", "pyPDP/algorithms/partitioner/decision_tree_partitioner.py:DecisionTreePartitioner.partition", "pyPDP/algorithms/partitioner/decision_tree_partitioner.py:DecisionTreePartitioner.get_incumbent_region"]}
{"id": "C185", "title": "The maximum mean discrepancy is at most the transport distance of samples and uniform points, and that of random samples tends to 0", "statement": "If Sampler.maximum_mean_discrepancy returns r and the median distance is l, then for every matching of samples and uniform points (weights with row sums 1/n and column sums 1/m) r is at most the weighted mean of min(sqrt 2, distance / l). In particular samples that are at most delta away from the uniform points, one by one, have r at most delta / l; and for every partition of the space into finitely many cells in which no point is more than delta away from the representative of its cell, r is at most 2 delta / l plus the sum over the cells of the differences of the relative frequencies. Hence, if samples and uniform points are drawn independently from the same distribution on the unit cube of which some coordinate takes no value with probability a sixth or more (such as the uniform distribution), then almost surely the result exists and is below every eps > 0 as soon as there are enough of both.", "quantifier": "all samples and uniform points of any dimension, all matchings, partitions, distributions with such a coordinate", "why_tests_cant": "a statement about all matchings and about the limit of infinitely many random samples", "anchors": ["pyPDP/sampler/__init__.py:Sampler.maximum_mean_discrepancy", "pyPDP/utils/utils.py:median_distance_between_points", "pyPDP/sampler/random_sampler.py:RandomSampler._sample"]}
{"id": "C186", "title": "With enough random samples the tree is the tree of the distribution of the samples", "statement": "Define the tree of a distribution by the same greedy rule as the partitioner, with the summed squared deviations of the variances replaced by their integrals: a region is split, up to the depth, at the hyperparameter and threshold with the least integrated loss, provided that split is the only best one (other splits cost more, or separate the region in almost surely the same way and come later in the search). If the samples are drawn independently from that distribution, the variance of the surrogate is square integrable and the distribution has such a tree, then almost surely, from some number of samples on, DecisionTreePartitioner.partition succeeds and returns exactly the leaves of that tree, with the same conditions in the same order; each leaf holds exactly the curves of the samples that satisfy its conditions; its share of the samples is within any given eps of the probability of the leaf; and Region.loss divided by the number of samples is within eps of the integrated loss of the leaf.", "quantifier": "all distributions with such a tree, all square integrable surrogates, all depths, numbers of thresholds, minimal region sizes and eps > 0; almost every sequence of samples", "why_tests_cant": "a statement about the limit of infinitely many random samples; any one run only shows one tree", "anchors": ["pyPDP/algorithms/partitioner/decision_tree_partitioner.py:DecisionTreePartitioner.partition", "pyPDP/algorithms/partitioner/decision_tree_partitioner.py:DecisionTreePartitioner.calc_best_split", "pyPDP/algorithms/partitioner/decision_tree_partitioner.py:DTRegion.split_at_value", "pyPDP/sampler/random_sampler.py:RandomSampler._sample"]}
{"id": "C187", "title": "With more and more random samples, PDP, mean confidence, negative log-likelihood and delta_nll of the leaves tend to those of their regions", "statement": "In the situation of C186 (independent samples, a distribution with a unique tree, integrable predictions) almost surely, for every eps > 0 and from some number of samples on: pdp_as_ice_curve of every leaf differs at every grid point by at most eps from the mean of the predictions over all points of the leaf's region, in the values, and from the mean of the predicted variances, in the variances; mean_confidence is a number within eps of the mean standard deviation in the region; and if the mean variances are positive, negative_log_likelihood of every leaf and of the root are numbers within eps of the Gaussian log loss of the true partial dependence for these means and variances, and delta_nll is within eps of the relative difference of these losses, provided the one of the whole space is not 0. Moreover, for every configuration there is one leaf of the tree of the distribution whose conditions it satisfies, and almost surely get_incumbent_region returns, from some number of samples on, the region with these conditions and the curves of exactly the samples that satisfy them.", "quantifier": "all distributions with such a tree, all surrogates with integrable predictions, all depths, numbers of thresholds, minimal region sizes, true functions and eps > 0; almost every sequence of samples", "why_tests_cant": "a statement about the limit of infinitely many random samples; any one run only shows one set of numbers", "anchors": ["pyPDP/algorithms/partitioner/__init__.py:Region.pdp_as_ice_curve", "pyPDP/algorithms/partitioner/__init__.py:Region.mean_confidence", "pyPDP/algorithms/partitioner/__init__.py:Region.negative_log_likelihood", "pyPDP/algorithms/partitioner/__init__.py:Region.delta_nll", "pyPDP/algorithms/partitioner/decision_tree_partitioner.py:DecisionTreePartitioner.partition", "pyPDP/algorithms/partitioner/decision_tree_partitioner.py:DecisionTreePartitioner.get_incumbent_region"]}
{"id": "C188", "title": "The probability that the tree of n random samples is not the tree of their distribution decreases exponentially with n", "statement": "Let the samples be drawn independently of each other from a distribution that has a tree (in every region, the split with the smallest expected losses is unique up to splits that are almost surely the same and come later). For every eps > 0, call a run with n samples good if DecisionTreePartitioner and partition succeed, the leaves have exactly the conditions of the leaves of this tree, in this order, every leaf holds exactly the curves of the samples in its region, and the share of the samples in it and its loss per sample differ by at most eps from probability and loss of the region. If the standard deviations of the surrogate are bounded there are constants C and c > 0 such that for all n the probability that the run is not good is at most C exp(-c n). If the samples are only pairwise independent and only the fourth powers of the variances have an expectation, it is at most C / n for a constant C.", "quantifier": "all numbers of samples n, all distributions with such a tree, all surrogates with such standard deviations, all depths, numbers of thresholds, minimal region sizes and eps > 0", "why_tests_cant": "a statement about probabilities for every number of samples; tests with a few seeds neither show a rate nor exclude rare failures", "anchors": ["pyPDP/algorithms/partitioner/decision_tree_partitioner.py:DecisionTreePartitioner.partition", "pyPDP/algorithms/partitioner/decision_tree_partitioner.py:DecisionTreePartitioner.calc_best_split", "pyPDP/sampler/random_sampler.py:RandomSampler._sample"]}
{"id": "C189", "title": "With more and more random samples the tree settles unless the cheapest split of some region is not unique", "statement": "Let the samples be drawn independently from one distribution under which the squared variances have an expectation, and assume that in no region that arises from splits at the thresholds of the splittable hyperparameters two splits have the smallest expected loss, except splits that are almost surely the same. Then for every max_depth >= 1 there is one list of conditions such that, for every min_points_per_region >= 1, almost surely and from some number of samples on, the leaves returned by DecisionTreePartitioner.partition have exactly these conditions, in this order. If the samples are mutually independent and the standard deviations bounded, the probability that the leaves of n samples have other conditions is at most C exp(-c n) for constants C and c > 0.", "quantifier": "all distributions without such ties, all surrogates with integrable squared variances, all depths, numbers of thresholds and minimal region sizes; almost every sequence of samples", "why_tests_cant": "a statement about the limit of infinitely many random samples; no run shows that the tree has settled", "anchors": ["pyPDP/algorithms/partitioner/decision_tree_partitioner.py:DecisionTreePartitioner.partition", "pyPDP/algorithms/partitioner/decision_tree_partitioner.py:DecisionTreePartitioner.calc_best_split", "pyPDP/algorithms/partitioner/decision_tree_partitioner.py:DTRegion.split_at_value", "pyPDP/sampler/random_sampler.py:RandomSampler._sample"]}
{"id": "C190", "title": "With a growing sample_size every tree of the forest becomes the decision tree of all samples", "statement": "Let a RandomForestPartitioner have at least one sample, and assume that the tree that sees every sample exactly once is grown without ties: whatever hyperparameters it may be split along, every other split of a node separates its samples in the same way or costs more. Let partition draw sample_size = m indices independently and uniformly from the samples for every tree. Then there are C and c > 0 such that for every m >= 1, except with probability at most C exp(-c m), partition succeeds with the requested number of trees, every tree has the leaf conditions of the tree that sees every sample exactly once and may be split along the same hyperparameters, and get_incumbent_region returns what it returns for the forest of those trees, for every configuration and every min_incumbent_overlap, whatever hyperparameters are drawn. Almost surely this holds for all sufficiently large m.", "quantifier": "all valid forests whose full-sample trees have no ties, all surrogates that predict row by row, all numbers of trees, depths and drawn hyperparameters; all distributions of independent uniform draws, all m >= 1", "why_tests_cant": "a statement about probabilities and about growing sizes of the drawn samples; a run shows one draw", "anchors": ["pyPDP/algorithms/partitioner/random_forest_partitioner.py:RandomForestPartitioner.partition", "pyPDP/algorithms/partitioner/random_forest_partitioner.py:RandomForestPartitioner.get_incumbent_region", "pyPDP/algorithms/partitioner/decision_tree_partitioner.py:DecisionTreePartitioner.partition"]}
{"id": "C191", "title": "With a growing number of trees the incumbent region of a forest settles", "statement": "Let the draws of the trees of a RandomForestPartitioner (indices, mask of hyperparameters, choice) be independent with one distribution, and call p(s) the probability that a tree has a leaf that contains both the sample s and the incumbent. If min_incumbent_overlap is about alpha times the number T of trees (in the limit) and no sample has p(s) = alpha, then get_incumbent_region returns the curves of exactly the samples with p(s) > alpha, in their order, except with a probability of at most C exp(-c T) for some c > 0. Without min_incumbent_overlap it returns, with the same kind of bound, the curves of exactly the samples with p(s) = 1, which are, if every possible draw may occur (as for numpy's uniform draws), the samples that share a leaf with the incumbent in every tree that can be drawn. Almost surely both hold for all sufficiently large T.", "quantifier": "all valid forests, all surrogates that predict row by row, all incumbents and samples with numbers, all depths and sample sizes, all distributions of the draws, all sequences of overlaps with the limit share alpha, all T >= 1", "why_tests_cant": "a statement about probabilities and about growing numbers of trees; a run shows one forest", "anchors": ["pyPDP/algorithms/partitioner/random_forest_partitioner.py:RandomForestPartitioner.get_incumbent_region", "pyPDP/algorithms/partitioner/random_forest_partitioner.py:RandomForestPartitioner.partition"]}
{"id": "C192", "title": "The sampling error of a PDP is asymptotically normal, and the ICE curves tell how large it is", "statement": "Let the samples be independent with one distribution and let the surrogate predict row by row. Suppose the mean of the surrogate at a grid point (selected hyperparameters at the grid point, the others from a sample) has a finite second moment and a variance s^2 that is not zero. Then the probability that the PDP exceeds the partial dependence of the surrogate at this grid point by at most z s / sqrt(n) tends, with the number n of samples, to the probability that a standard normal variable is at most z. The ICE curves estimate s: the probability that the partial dependence lies within z s_n / sqrt(n) of the PDP, where s_n is the standard deviation (numpy's std) of the n ICE curves at the grid point, tends to the probability that a standard normal variable is at most z in absolute value (95 percent for z = 1.96).", "quantifier": "all spaces, selections and grids, all surrogates that predict row by row with measurable means, all distributions of the samples with a finite second moment and non-zero variance of the mean at the grid point, all grid points, all real z", "why_tests_cant": "a limit of probabilities over random samples of growing number; a run shows one sample", "anchors": ["pyPDP/algorithms/pdp.py:PDP.y_pdp", "pyPDP/algorithms/ice.py:ICE._calculate", "pyPDP/algorithms/ice.py:ICE.y_ice", "pyPDP/algorithms/__init__.py:Algorithm.from_random_points"]}
{"id": "C193", "title": "With finer and finer grids the decision tree and the quality of its regions settle", "statement": "Let the surrogate predict row by row and let its standard deviation depend continuously on the selected hyperparameters. Suppose the tree that divides the samples by the loss integrated over all values of the selected hyperparameters (the unit cube) has at every division a best split: every other admissible split has a strictly larger integrated cost or divides the samples in the same way and comes later. Then from some number of grid points per axis on, DecisionTreePartitioner.partition succeeds and returns exactly the leaves of this tree: the same samples in the same order and the same conditions. The loss of a leaf per grid point and its mean_confidence are within any given distance of the integrals of the squared deviations and of the mean standard deviation over the cube. If moreover the mean and the true partial dependence are continuous and the mean variance of the leaves and the whole set is positive, negative_log_likelihood of the leaves and of the whole region are within any given distance of the integral of the Gaussian log loss, and delta_nll is within any given distance of the relative improvement of these integrals.", "quantifier": "all well-formed spaces, selections (any number of selected hyperparameters), lists of samples, surrogates that predict row by row and continuously in the selected hyperparameters, numbers of splits, minimum sizes from 1 on, depths from 1 on, not-splittable selections; all tolerances; all numbers of grid points from some number on; any true function with a continuous partial dependence", "why_tests_cant": "a limit over the number of grid points; a run shows one grid", "anchors": ["pyPDP/algorithms/partitioner/decision_tree_partitioner.py:DecisionTreePartitioner.partition", "pyPDP/algorithms/partitioner/decision_tree_partitioner.py:DecisionTreePartitioner.calc_best_split", "pyPDP/algorithms/partitioner/__init__.py:Region.loss", "pyPDP/algorithms/partitioner/__init__.py:Region.mean_confidence", "pyPDP/algorithms/partitioner/__init__.py:Region.negative_log_likelihood", "pyPDP/algorithms/partitioner/__init__.py:Region.delta_nll", "pyPDP/algorithms/ice.py:ICE._calculate"]}
{"id": "C194", "title": "How fine a grid suffices for the tree, the loss and the mean confidence", "statement": "Let the surrogate predict row by row, let its standard deviations at the n samples be at most B, and let them change by at most C times the change of the selected hyperparameters (normalised, largest change of a coordinate). Suppose every split of the tree for a continuum of grid points (C193) is better by at least d than all splits that divide the samples differently. Then with any number g of grid points per axis from 2 on with g > 16 n B^3 C / d, DecisionTreePartitioner.partition returns exactly the leaves of this tree (conditions and samples, in order). The loss per grid point of a leaf with n' samples differs from the integral over all values of the selected hyperparameters by at most 8 n' B^3 C / g, and its mean_confidence from the integral of the mean standard deviation by at most C / g. Whenever the tree of C193 exists, so does some margin d > 0.", "quantifier": "all well-formed spaces, selections (any number of selected hyperparameters), lists of samples, surrogates that predict row by row with bounded and Lipschitz standard deviations, numbers of splits, minimum sizes from 1 on, depths from 1 on, not-splittable selections; all numbers of grid points above the bound", "why_tests_cant": "an explicit bound for all grids and surrogates; tests show single grids", "anchors": ["pyPDP/algorithms/partitioner/decision_tree_partitioner.py:DecisionTreePartitioner.partition", "pyPDP/algorithms/partitioner/decision_tree_partitioner.py:DecisionTreePartitioner.calc_best_split", "pyPDP/algorithms/partitioner/__init__.py:Region.loss", "pyPDP/algorithms/partitioner/__init__.py:Region.mean_confidence", "pyPDP/algorithms/ice.py:ICE._calculate"]}
{"id": "C195", "title": "How far the lines of a plot are from the curves between the grid points", "statement": "For one selected hyperparameter and n >= 2 grid points, take the line that PDP.plot_values draws as matplotlib shows it: straight pieces on the screen between consecutive points, on a logarithmic axis straight in the logarithm. Over every value of the hyperparameter between its bounds the line has a point, and every such point is near the average over the samples of the surrogate's mean at that very value: within C / (2 (n - 1)) if the mean changes by at most C times the change of the normalised hyperparameter, and within M / (8 (n - 1)^2) if it has second derivatives of at most M. The lines of PDP.plot_confidences one and two standard deviations off and the edges of its 100 bands are within (C + k D) / (2 (n - 1)) of the mean plus or minus k times the root of the average variance, if the standard deviations change by at most D times the change of the normalised hyperparameter. The line of plot_function is within C / (2 (n - 1)) of the function.", "quantifier": "all spaces, float and integer hyperparameters with linear or logarithmic axes, samples, row-wise surrogates with Lipschitz or twice differentiable means and Lipschitz standard deviations, numbers of grid points from 2 on, values between the bounds, colours; an axis that is not already logarithmic for a linear hyperparameter", "why_tests_cant": "a bound for every value between the grid points of every grid; a plot shows one grid and no error", "anchors": ["pyPDP/algorithms/pdp.py:PDP.plot_values", "pyPDP/algorithms/pdp.py:PDP.plot_confidences", "pyPDP/algorithms/ice.py:ICECurve.plot_values", "pyPDP/algorithms/ice.py:ICECurve.plot_confidences", "pyPDP/utils/plotting.py:plot_function", "pyPDP/utils/plotting.py:plot_line", "pyPDP/utils/plotting.py:plot_1D_confidence_lines", "pyPDP/utils/plotting.py:plot_1D_confidence_color_gradients", "pyPDP/utils/plotting.py:check_and_set_axis"]}
{"id": "C196", "title": "How far the marked minimum of a PDP is from the true minimum", "statement": "ICECurve.plot_incumbent on the curve of a PDP with n >= 2 grid points per axis marks one place between the bounds: a vertical line for one selected hyperparameter, a point for two. Let the mean of the surrogate change by at most C times the (largest) change of the normalised selected hyperparameters. Then nowhere between the bounds, also not between grid points, is the average over the samples of the means smaller than at the marked place by more than C / (2 (n - 1)). For one hyperparameter and means with second derivatives of at most M it is nowhere smaller by more than M / (8 (n - 1)^2); and if the average falls up to some value and rises from there on, the vertical line is less than one grid step, on the normalised scale, from this value.", "quantifier": "all spaces, one or two selected float or integer hyperparameters with linear or logarithmic axes, samples, row-wise surrogates with Lipschitz or twice differentiable means, numbers of grid points from 2 on, places between the bounds, colours", "why_tests_cant": "a bound against every place between the grid points of every grid; a test compares with one grid", "anchors": ["pyPDP/algorithms/ice.py:ICECurve.plot_incumbent", "pyPDP/algorithms/pdp.py:PDP.as_ice_curve", "pyPDP/algorithms/ice.py:ICE.grid_points"]}
{"id": "C197", "title": "What the plots of a PDP say about the blackbox function itself", "statement": "Let one hyperparameter be selected, let the surrogate be off by at most B predicted standard deviations wherever the PDP looks, and let its means and standard deviations change by at most C and D times the change of the normalised hyperparameter. Write s(t) for the root of the average variance over the samples at the value t, and n >= 2 for the number of grid points. Then, over every value between the bounds: the line of PDP.plot_values is within B s(t) + C / (2 (n - 1)) of the average of the blackbox function itself over the samples; at the vertical line t of ICECurve.plot_incumbent that average is larger than at any other value t' by at most B (s(t) + s(t')) + C / (2 (n - 1)); and if B <= 2 the average of the blackbox function lies between the outer lines of PDP.plot_confidences, up to (C + 2 D) / (2 (n - 1)). For the Gaussian process surrogate with its default arguments, fitted to m values of the blackbox function, all of this holds if the kernel represents the function with size at most B; then D is sqrt 3 times the spread of the values divided by the length scale and by the spread of the evaluated hyperparameter values, and C is 10^4 sqrt m D.", "quantifier": "all spaces, float and integer hyperparameters with linear or logarithmic axes, samples, blackbox functions, row-wise surrogates with Lipschitz means and standard deviations, training data, length scales, numbers of grid points from 2 on, values between the bounds, colours", "why_tests_cant": "the blackbox function is unknown between evaluations; the bounds are for every value and every function of a given size", "anchors": ["pyPDP/algorithms/pdp.py:PDP.plot_values", "pyPDP/algorithms/pdp.py:PDP.plot_confidences", "pyPDP/algorithms/ice.py:ICECurve.plot_incumbent", "pyPDP/surrogate_models/sklearn_surrogates.py:SkLearnPipelineSurrogate.predict"]}
{"id": "C198", "title": "A leaf is what an ICE and a PDP of its samples alone compute", "statement": "Let a decision tree partitioner be constructed with a row-wise surrogate and at least one point per node, and let partition be called with a positive depth. The samples are divided among the leaves: every sample is in exactly one, no leaf is empty, and each leaf has its samples in their original order. For every leaf with samples T, ICE(surrogate, selected, T, grid points) has exactly the x values, y values and variances of the leaf, PDP(surrogate, selected, T, grid points).as_ice_curve is exactly the leaf's pdp_as_ice_curve, and plot_values and plot_confidences of the leaf draw on every axis, in every colour and with the same errors, exactly what the same methods of that PDP draw. So what is proved for the plots of a PDP, such as C195, holds for the plots of a leaf with T in place of the samples.", "quantifier": "all well-formed spaces, row-wise surrogates, samples, selections, grid sizes from 1 on, numbers of thresholds, minimum node sizes from 1 on, positive depths, axes, colours", "why_tests_cant": "a test would compare single trees; here the tree, its depth and the surrogate are arbitrary", "anchors": ["pyPDP/algorithms/partitioner/decision_tree_partitioner.py:DecisionTreePartitioner.partition", "pyPDP/algorithms/partitioner/__init__.py:Region.pdp_as_ice_curve", "pyPDP/algorithms/partitioner/__init__.py:Region.plot_values", "pyPDP/algorithms/partitioner/__init__.py:Region.plot_confidences", "pyPDP/algorithms/pdp.py:PDP.as_ice_curve"]}
{"id": "C199", "title": "What the plots of a leaf say about the blackbox function, and why a leaf with small standard deviations can be trusted", "statement": "Let one hyperparameter be selected, let the surrogate be off by at most B predicted standard deviations wherever the curves look, and let its means and standard deviations change by at most C and D times the change of the normalised hyperparameter; let n >= 2 be the number of grid points. After partition(depth) the samples are divided among the leaves. For every leaf with samples T and over every value t between the bounds: the line of plot_values of the leaf is within B s(t) + C / (2 (n - 1)) of the average of the blackbox function itself over T, where s(t) is the root of the average variance over T at t; so if all standard deviations of the leaf's curves at t are at most sigma, within B sigma + C / (2 (n - 1)), however uncertain the surrogate is in other leaves. If B <= 2, the average of the blackbox function over T lies between the outer lines of plot_confidences of the leaf, up to (C + 2 D) / (2 (n - 1)).", "quantifier": "all spaces, float and integer hyperparameters with linear or logarithmic axes, samples, blackbox functions, row-wise surrogates with Lipschitz means and standard deviations, numbers of grid points from 2 on, thresholds, minimum node sizes from 1 on, positive depths, values between the bounds, colours", "why_tests_cant": "the blackbox function is unknown between evaluations; trees, surrogates and values of the hyperparameter are arbitrary", "anchors": ["pyPDP/algorithms/partitioner/decision_tree_partitioner.py:DecisionTreePartitioner.partition", "pyPDP/algorithms/partitioner/__init__.py:Region.plot_values", "pyPDP/algorithms/partitioner/__init__.py:Region.plot_confidences"]}
{"id": "C200", "title": "The lines of an ICE plot between the grid points: their mean is the line of the PDP, and lines that are not parallel prove an interaction", "statement": "For one selected hyperparameter and n >= 2 grid points take the lines that ICE.plot draws as matplotlib shows them (straight pieces on the screen, on a logarithmic axis straight in the logarithm). Over every value between the bounds every line has a point. If the surrogate's means change by at most C times the change of the normalised hyperparameter, the line of a sample is there within C / (2 (n - 1)) of the prediction for the sample with the hyperparameter set to this very value; if the prediction is off by at most B standard deviations, within B standard deviations more of the blackbox function. So if the blackbox function does not let the hyperparameter interact with the others (it is a function of the sample plus a function of the value), any two lines rise by the same amount between any two values, up to B times the four standard deviations plus 2 C / (n - 1): lines that are further from parallel prove an interaction. And over every value, not just at the grid points, the line of PDP.plot_values is exactly the mean of the lines of ICE.plot for the same arguments.", "quantifier": "all spaces, float and integer hyperparameters with linear or logarithmic axes, samples, blackbox functions, row-wise surrogates, numbers of grid points from 2 on, values between the bounds, colours, opacities", "why_tests_cant": "a continuum of values between the grid points, of surrogates and of blackbox functions", "anchors": ["pyPDP/algorithms/ice.py:ICE.plot", "pyPDP/algorithms/pdp.py:PDP.plot_values"]}
{"id": "C201", "title": "How far the line of a PDP plot of random samples is from the true partial dependence: sampling, grid and surrogate errors together", "statement": "Draw m samples independently from one distribution of normalised vectors, choose one hyperparameter and n >= 2 grid points. Let the surrogate's means lie in a range of width w, change by at most C times the change of the normalised hyperparameter, and be off from the blackbox function by at most B predicted standard deviations. Then for every eps >= 0, with probability at least 1 - 2 n exp(-2 m eps^2 / w^2) both constructing the PDP and PDP.plot_values succeed, the plot gets exactly one line, and over every value between the bounds (not just at grid points; on a logarithmic axis as matplotlib draws it) the line is within eps + C / (2 (n - 1)) + B times the expected predicted standard deviation of the true partial dependence, that is the expectation of the blackbox function of a random sample with the hyperparameter set to this value.", "quantifier": "all spaces, float and integer hyperparameters with linear or logarithmic axes, distributions on normalised vectors, blackbox functions, row-wise surrogates, numbers of samples and of grid points from 2 on, eps, values between the bounds, colours", "why_tests_cant": "a probability over all samples, and a continuum of values, surrogates and blackbox functions", "anchors": ["pyPDP/algorithms/pdp.py:PDP.plot_values", "pyPDP/algorithms/pdp.py:PDP.y_pdp", "pyPDP/algorithms/ice.py:ICE._calculate"]}
{"id": "C202", "title": "The plot of a centered ICE object: every line moved to start at zero, and lines that spread prove an interaction", "statement": "For one selected hyperparameter and n >= 2 grid points, setting centered to True on a new ICE object before ICE.plot moves the line of every sample down as a whole by the prediction for the sample with the hyperparameter at its lower bound: over every value between the bounds (as matplotlib draws the lines, linear or logarithmic axis) the points of the line are exactly those of the uncentered plot lowered by this amount, and over the lower bound the line is at height 0 and nowhere else. If the surrogate's means change by at most C times the change of the normalised hyperparameter and are off by at most B standard deviations from a blackbox function that does not let the hyperparameter interact with the others, then over every value any two lines of the centered plot are at most B times four standard deviations (of the two samples, at the lower bound and at the value) plus C / (n - 1) apart: lines further apart anywhere prove an interaction.", "quantifier": "all spaces, float and integer hyperparameters with linear or logarithmic axes, samples, blackbox functions, row-wise surrogates, numbers of grid points from 2 on, values between the bounds, colours, opacities", "why_tests_cant": "a continuum of values between the grid points, of surrogates and of blackbox functions", "anchors": ["pyPDP/algorithms/ice.py:ICE.plot", "pyPDP/algorithms/ice.py:ICE._calculate"]}
{"id": "C203", "title": "Widened by the sampling error, the confidence bands of a PDP plot of random samples contain the true partial dependence", "statement": "Draw m samples independently from one distribution of normalised vectors, choose one hyperparameter and n >= 2 grid points. Let the surrogate be off from the blackbox function by at most B predicted standard deviations, let the values of the blackbox function lie in a range of width w and change by at most C times the change of the normalised hyperparameter. Nothing else is assumed about the surrogate. Then for every eps >= 0, with probability at least 1 - 2 n exp(-2 m eps^2 / w^2) constructing the PDP and PDP.plot_confidences succeed, and over every value between the bounds (not just at grid points) the true partial dependence, that is the expectation of the blackbox function of a random sample with the hyperparameter set to this value, lies between the lower and the upper line that the plot draws at one standard deviation (if B <= 1) and at two (if B <= 2), up to eps + C / (2 (n - 1)).", "quantifier": "all spaces, float and integer hyperparameters with linear or logarithmic axes, distributions on normalised vectors, blackbox functions, row-wise surrogates, numbers of samples and of grid points from 2 on, eps, values between the bounds, colours, max_sigma", "why_tests_cant": "a probability over all samples, and a continuum of values, surrogates and blackbox functions", "anchors": ["pyPDP/algorithms/pdp.py:PDP.plot_confidences", "pyPDP/algorithms/pdp.py:PDP.y_variances"]}
{"id": "C204", "title": "The value marked as the minimum of a PDP of random samples is nearly the best value of the blackbox function", "statement": "Draw m samples independently from one distribution of normalised vectors, choose one hyperparameter and n >= 2 grid points. Let the surrogate's means lie in a range of width w, change by at most C times the change of the normalised hyperparameter, and be off from the blackbox function by at most B predicted standard deviations. Then for every eps >= 0, with probability at least 1 - 2 n exp(-2 m eps^2 / w^2) constructing the PDP, taking its curve and ICECurve.plot_incumbent succeed, the plot gets exactly one vertical line, at a value between the bounds, and the true partial dependence (the expectation of the blackbox function of a random sample with the hyperparameter set to a value) at the marked value is larger than at any other value between the bounds, on or off the grid, by at most 2 eps + C / (2 (n - 1)) + B times the sum of the expected predicted standard deviations at both values.", "quantifier": "all spaces, float and integer hyperparameters, distributions on normalised vectors, blackbox functions, row-wise surrogates, numbers of samples and of grid points from 2 on, eps, values between the bounds, colours", "why_tests_cant": "a probability over all samples, and a continuum of values, surrogates and blackbox functions", "anchors": ["pyPDP/algorithms/ice.py:ICECurve.plot_incumbent", "pyPDP/algorithms/pdp.py:PDP.as_ice_curve", "pyPDP/algorithms/pdp.py:PDP.y_pdp"]}
{"id": "C205", "title": "The pair of values marked as the minimum of a PDP of two hyperparameters and random samples is nearly the best pair for the blackbox function", "statement": "Draw m samples independently from one distribution of normalised vectors, choose two different hyperparameters and n >= 2 grid points per axis. Let the surrogate's means lie in a range of width w, change by at most C times the larger of the changes of the two normalised hyperparameters, and be off from the blackbox function by at most B predicted standard deviations. Then for every eps >= 0, with probability at least 1 - 2 n^2 exp(-2 m eps^2 / w^2) constructing the PDP, taking its curve and ICECurve.plot_incumbent succeed, the plot gets exactly one point, both coordinates between the bounds, and the true partial dependence (the expectation of the blackbox function of a random sample with both hyperparameters set) at the marked pair is larger than at any other pair of values between the bounds, on or off the grid, by at most 2 eps + C / (2 (n - 1)) + B times the sum of the expected predicted standard deviations at both pairs.", "quantifier": "all spaces, pairs of float and integer hyperparameters, distributions on normalised vectors, blackbox functions, row-wise surrogates, numbers of samples and of grid points from 2 on, eps, pairs of values between the bounds, colours", "why_tests_cant": "a probability over all samples, and a continuum of values, surrogates and blackbox functions", "anchors": ["pyPDP/algorithms/ice.py:ICECurve.plot_incumbent", "pyPDP/algorithms/pdp.py:PDP.as_ice_curve", "pyPDP/algorithms/pdp.py:PDP.y_pdp"]}
{"id": "C206", "title": "In a plot of the blackbox function and the surrogate's confidences, the function's line stays between the k-sigma lines exactly if the surrogate is off by at most k standard deviations on the axis", "statement": "Call plot_function of a blackbox function and plot_confidences of a row-wise surrogate, for a space of one float or integer hyperparameter, with the same number n >= 2 of samples per axis, on equal axes. Both succeed; the first adds one line, the second 100 bands and two pairs of lines, and all lines run over every value between the bounds. For k = 1 and k = 2: the line of the function lies between the two lines at k standard deviations over every value between the bounds, on or off the grid, if and only if the surrogate's mean is off from the function by at most k predicted standard deviations at the n values of the axis. If so, and if the function changes by at most E times the change of the normalised hyperparameter, the function itself leaves the area between the lines nowhere by more than E / (2 (n - 1)).", "quantifier": "all float and integer hyperparameters with linear and logarithmic axes, blackbox functions, row-wise surrogates with non-negative standard deviations, numbers of samples per axis from 2 on, values between the bounds, colours", "why_tests_cant": "an equivalence over all values of a continuum, all functions and all surrogates", "anchors": ["pyPDP/surrogate_models/__init__.py:SurrogateModel.plot_confidences", "pyPDP/utils/plotting.py:plot_function"]}
{"id": "C207", "title": "The plots of the blackbox function and of the surrogate's means differ exactly by the surrogate's error on the axes", "statement": "Call plot_function of a blackbox function, and plot_means and plot_confidences of a row-wise surrogate, with the same number n >= 2 of samples per axis, on equal axes. One float or integer hyperparameter: the lines of plot_function and plot_means have the same x values, and for every delta they are nowhere between the bounds, on or off the grid, further apart than delta if and only if the surrogate's mean is off by at most delta at the n values of the axis; the means' line is nowhere below the function's if and only if this is so at these values. Two hyperparameters: all three calls draw an n by n mesh over the same axes and in the same orientation, and for every k the colours of the function and of the means differ, cell by cell, by at most k times the colours of the confidences if and only if the surrogate is off by at most k standard deviations at all pairs of values of the axes.", "quantifier": "all pairs of float and integer hyperparameters with linear and logarithmic axes, blackbox functions, row-wise surrogates, numbers of samples per axis from 2 on, delta, k, values between the bounds, colours", "why_tests_cant": "equivalences over all values of a continuum, all functions and all surrogates", "anchors": ["pyPDP/surrogate_models/__init__.py:SurrogateModel.plot_means", "pyPDP/surrogate_models/__init__.py:SurrogateModel.plot_confidences", "pyPDP/utils/plotting.py:plot_function"]}
{"id": "C208", "title": "The blackbox function and the surrogate's means and confidences can be drawn on one axis, and the picture shows how good the surrogate is", "statement": "Call plot_function of a blackbox function, then plot_means and plot_confidences of a row-wise surrogate, with the same axis and the same number n >= 2 of samples per axis, for a space of one float or integer hyperparameter. If the axis accepts the hyperparameter, all three calls succeed and add to what was already drawn, in this order, the line of the function, the line of the means over the same x values, 100 bands and two pairs of lines, and nothing else. In this one picture: for every delta, the first two lines are nowhere between the bounds further apart than delta if and only if the mean is off by at most delta at the n values of the axis; for k = 1 and 2, the function's line stays everywhere between the lines of the k-th pair if and only if the mean is off by at most k predicted standard deviations at these values.", "quantifier": "all float and integer hyperparameters with linear and logarithmic axes, axes with anything drawn before, blackbox functions, row-wise surrogates with non-negative standard deviations, numbers of samples per axis from 2 on, delta, values between the bounds, colours", "why_tests_cant": "a sequence of calls on shared state, and equivalences over a continuum of values, functions and surrogates", "anchors": ["pyPDP/surrogate_models/__init__.py:SurrogateModel.plot_means", "pyPDP/surrogate_models/__init__.py:SurrogateModel.plot_confidences", "pyPDP/utils/plotting.py:plot_function", "pyPDP/utils/plotting.py:check_and_set_axis"]}
