{"id": "C01", "title": "Mass today equals logm0", "statement": "If t_peak is not earlier than the present time t0 = 10**lgt0, then logmh_at_t_obs and the log_mah output of mah_singlehalo evaluated at t0 return exactly logm0.", "quantifier": "every parameter tuple, every time, every lgt0 (uncountably many real inputs)", "why_tests_cant": "tests evaluate a handful of sampled points; the claim is about a continuum of inputs", "anchors": ["diffmah/diffmah_kernels.py:logmh_at_t_obs", "diffmah/diffmah_kernels.py:mah_singlehalo", "diffmah/diffmah_kernels.py:_log_mah_kern"]}
{"id": "C02", "title": "Mass is frozen after t_peak", "statement": "For every time t >= t_peak the returned log_mah equals the value returned at t_peak; before t_peak the history does not depend on t_peak at all.", "quantifier": "every parameter tuple, every time, every lgt0 (uncountably many real inputs)", "why_tests_cant": "tests evaluate a handful of sampled points; the claim is about a continuum of inputs", "anchors": ["diffmah/diffmah_kernels.py:_log_mah_kern"]}
{"id": "C03", "title": "Mass never decreases in time", "statement": "For every parameter tuple inside the advertised bounds with late_index <= early_index, log_mah is non-decreasing in time on all t > 0, for every present-day time t0 of at least 9 Gyr (and on t <= t0 for any t0). Strictly increasing up to t_peak. Below t0 = 20/10**(22/63) = 8.95 Gyr the claim fails.", "quantifier": "every in-bounds parameter tuple, every pair of times t1 <= t2, every t0 >= 9", "why_tests_cant": "monotonicity is a statement about all pairs of times and all parameters, including the corner of the parameter box where it is tightest", "anchors": ["diffmah/diffmah_kernels.py:_log_mah_kern", "diffmah/diffmah_kernels.py:_rolling_plaw_vs_logt", "diffmah/diffmah_kernels.py:MAH_PBDICT"]}
{"id": "C04", "title": "Accretion rate is the time derivative of the mass", "statement": "The dmhdt returned by mah_singlehalo at time t < t_peak, multiplied by 1e9, is the derivative at t of the mass 10**log_mah returned by the same call.", "quantifier": "every parameter tuple, every 0 < t < t_peak", "why_tests_cant": "a finite-difference test has finite tolerance at finitely many points; this is equality with a limit", "anchors": ["diffmah/diffmah_kernels.py:_dmhdt_noq_kern_scalar", "diffmah/diffmah_kernels.py:_dmhdt_kern", "diffmah/diffmah_kernels.py:mah_singlehalo"]}
{"id": "C05", "title": "Accretion rate integrates back to the mass", "statement": "For all 0 < t1 <= t2 the mass difference M(t2) - M(t1) equals 1e9 times the integral of the returned dmhdt over [t1, t2], including when t_peak lies inside the interval.", "quantifier": "every parameter tuple with positive t_peak, every interval", "why_tests_cant": "an integral identity over all intervals cannot be established by quadrature at sampled points", "anchors": ["diffmah/diffmah_kernels.py:_diffmah_kern"]}
{"id": "C06", "title": "Accretion rate is never negative and vanishes after t_peak", "statement": "dmhdt is exactly zero for t > t_peak, and strictly positive for 0 < t <= t_peak for every in-bounds parameter tuple with t0 >= 9.", "quantifier": "every in-bounds parameter tuple, every t > 0", "why_tests_cant": "sign condition over a continuum", "anchors": ["diffmah/diffmah_kernels.py:_dmhdt_kern", "diffmah/diffmah_kernels.py:_dmhdt_kern_scalar"]}
{"id": "C07", "title": "logm0 only rescales the history", "statement": "Adding d to logm0 adds exactly d to log_mah at every time and multiplies dmhdt by exactly 10**d at every time other than zero.", "quantifier": "every parameter tuple, shift and time", "why_tests_cant": "tests evaluate a handful of sampled points; the claim is about a continuum of inputs", "anchors": ["diffmah/diffmah_kernels.py:mah_singlehalo"]}
{"id": "C08", "title": "Raising t_peak only extends the history", "statement": "If two haloes differ only in t_peak then they agree at all times before the smaller t_peak and the one with the larger t_peak is at least as massive at every time.", "quantifier": "every in-bounds pair, every time", "why_tests_cant": "tests evaluate a handful of sampled points; the claim is about a continuum of inputs", "anchors": ["diffmah/diffmah_kernels.py:_log_mah_kern"]}
{"id": "C09", "title": "History lies between its early and late power laws", "statement": "For t <= t0 <= t_peak, log_mah lies between logm0 + early_index*(log10 t - lgt0) and logm0 + late_index*(log10 t - lgt0).", "quantifier": "every parameter tuple with late <= early, every t <= t0", "why_tests_cant": "tests evaluate a handful of sampled points; the claim is about a continuum of inputs", "anchors": ["diffmah/diffmah_kernels.py:_rolling_plaw_vs_logt"]}
{"id": "C10", "title": "Population call is the single-halo call row by row", "statement": "Row i of both outputs of mah_halopop equals mah_singlehalo applied to the i-th halo; output shape is (n_halos, n_times); permuting haloes permutes rows.", "quantifier": "every number of haloes, every number of times", "why_tests_cant": "all array sizes, all permutations", "anchors": ["diffmah/diffmah_kernels.py:mah_halopop", "diffmah/diffmah_kernels.py:_diffmah_kern_vmap"]}
{"id": "C11", "title": "Value at a time is independent of the time grid", "statement": "Entry j of mah_singlehalo's outputs depends only on tarr[j] and log_mah[j] equals logmh_at_t_obs at tarr[j].", "quantifier": "every grid, every index", "why_tests_cant": "all grids of all lengths", "anchors": ["diffmah/diffmah_kernels.py:mah_singlehalo", "diffmah/diffmah_kernels.py:logmh_at_t_obs"]}
{"id": "C12", "title": "get_bounded_mah_params always lands strictly inside the bounds", "statement": "For every finite u_params the returned parameters lie strictly inside MAH_PBOUNDS and satisfy late_index < early_index.", "quantifier": "every finite u_params tuple in R^5", "why_tests_cant": "tests draw finitely many u_params", "anchors": ["diffmah/diffmah_kernels.py:get_bounded_mah_params", "diffmah/diffmah_kernels.py:MAH_PBDICT"]}
{"id": "C13", "title": "Unbounding inverts bounding", "statement": "get_unbounded_mah_params(get_bounded_mah_params(u)) = u for every finite u.", "quantifier": "every u in R^5", "why_tests_cant": "tests draw finitely many u_params at finite tolerance", "anchors": ["diffmah/diffmah_kernels.py:get_bounded_mah_params", "diffmah/diffmah_kernels.py:get_unbounded_mah_params"]}
{"id": "C14", "title": "Bounding inverts unbounding on the valid domain", "statement": "get_bounded_mah_params(get_unbounded_mah_params(p)) = p for every p strictly inside the bounds with late_index < early_index; hence bounding is a bijection from R^5 onto that domain.", "quantifier": "every valid p", "why_tests_cant": "continuum of inputs", "anchors": ["diffmah/diffmah_kernels.py:get_bounded_mah_params", "diffmah/diffmah_kernels.py:get_unbounded_mah_params"]}
{"id": "C15", "title": "Invalid parameters are never mapped to finite unbounded values", "statement": "If some parameter is on or outside its bound (or early_index <= late_index) the corresponding entry of get_unbounded_mah_params is NaN or infinite, never a finite number.", "quantifier": "every invalid parameter tuple", "why_tests_cant": "boundary and exterior of a five-dimensional box", "anchors": ["diffmah/diffmah_kernels.py:_get_unbounded_diffmah_param", "diffmah/diffmah_kernels.py:_get_u_early_late", "diffmah/diffmah_kernels.py:_inverse_sigmoid"]}
{"id": "C16", "title": "Histories are finite for valid parameters; zero time means zero mass", "statement": "For valid parameters and every t > 0 log_mah is finite; at t = 0 < t_peak it is -inf (mass exactly 0); at t < 0 it is NaN.", "quantifier": "every valid parameter tuple, every real t", "why_tests_cant": "all inputs including special values", "anchors": ["diffmah/diffmah_kernels.py:_log_mah_kern"]}
{"id": "C17", "title": "Unbounded-parameter entry points agree with the bounded ones", "statement": "log_mah / dmhdt / both computed from u_params equal those computed from get_bounded_mah_params(u_params).", "quantifier": "every u, every time array", "why_tests_cant": "tests evaluate a handful of sampled points; the claim is about a continuum of inputs", "anchors": ["diffmah/diffmah_kernels.py:_log_mah_kern_u_params", "diffmah/diffmah_kernels.py:_dmhdt_kern_u_params", "diffmah/diffmah_kernels.py:_diffmah_kern_u_params"]}
{"id": "C18", "title": "Bounding transform is strictly increasing", "statement": "Each bounded parameter is strictly increasing in its own unbounded counterpart, with the bounds as its limits at -inf and +inf (for early_index: limits late_index and 10).", "quantifier": "every pair of u values", "why_tests_cant": "tests evaluate a handful of sampled points; the claim is about a continuum of inputs", "anchors": ["diffmah/diffmah_kernels.py:_get_bounded_diffmah_param", "diffmah/diffmah_kernels.py:_get_early_late"]}
{"id": "C19", "title": "_sigmoid interpolates between its asymptotes", "statement": "_sigmoid(x,x0,k,ylo,yhi) lies strictly between ylo and yhi when they differ, equals their midpoint at x0, is strictly monotone for k > 0 and tends to ylo and yhi at -inf and +inf.", "quantifier": "every x,x0,k,ylo,yhi", "why_tests_cant": "tests evaluate a handful of sampled points; the claim is about a continuum of inputs", "anchors": ["diffmah/utils.py:_sigmoid", "diffmah/diffmah_kernels.py:_sigmoid"]}
{"id": "C20", "title": "_inverse_sigmoid inverts _sigmoid both ways", "statement": "_inverse_sigmoid(_sigmoid(x)) = x for k != 0, ylo != yhi; _sigmoid(_inverse_sigmoid(y)) = y for y strictly between ylo and yhi; other y give NaN or inf.", "quantifier": "every argument tuple", "why_tests_cant": "tests evaluate a handful of sampled points; the claim is about a continuum of inputs", "anchors": ["diffmah/utils.py:_inverse_sigmoid", "diffmah/diffmah_kernels.py:_inverse_sigmoid"]}
{"id": "C21", "title": "get_dt_array tiles the time axis", "statement": "For n >= 2 the returned dt has length n, the cells are contiguous, dt[0] = t[1]-t[0], interior dt[i] = (t[i+1]-t[i-1])/2, all dt are positive when t is strictly increasing, and they sum to (t[n-1]-t[0]) + (t[1]-t[0])/2 + dt[n-2]/2.", "quantifier": "every array length, every strictly increasing t", "why_tests_cant": "all lengths; the loop carries state between iterations", "anchors": ["diffmah/utils.py:get_dt_array"]}
{"id": "C22", "title": "get_dt_array rejects arrays with fewer than two times", "statement": "For n < 2 the call raises IndexError instead of returning a dt.", "quantifier": "every t with n < 2", "why_tests_cant": "error branch", "anchors": ["diffmah/utils.py:get_dt_array"]}
{"id": "C23", "title": "get_cholesky_from_params layout", "statement": "For n(n+1)/2 parameters the result is n by n lower triangular, the first n parameters are the diagonal, and the rest fill the strictly lower triangle row by row; each parameter is used exactly once.", "quantifier": "every n, every parameter vector", "why_tests_cant": "index arithmetic for all n", "anchors": ["diffmah/utils.py:get_cholesky_from_params"]}
{"id": "C24", "title": "Covariance and correlation conversions are mutually inverse", "statement": "covariance_from_correlation(corr, s) has entries s_i corr_ij s_j, preserves symmetry and positive semi-definiteness, has diagonal s**2 when corr has unit diagonal; correlation_from_covariance undoes it for positive s, and conversely covariance_from_correlation(correlation_from_covariance(C), sqrt(diag C)) = C when diag C > 0.", "quantifier": "every n, every matrix", "why_tests_cant": "all matrix sizes and entries", "anchors": ["diffmah/utils.py:covariance_from_correlation", "diffmah/utils.py:correlation_from_covariance"]}
{"id": "C25", "title": "Trimmed mean is a mean of retained points", "statement": "trimmed_mean(x,p) is the arithmetic mean of exactly those entries of x strictly between the p and 1-p percentiles; hence it lies strictly between them, does not depend on the order of x and is equivariant under x -> a x + b (a > 0). If nothing is retained the result is NaN.", "quantifier": "every array, every p in [0,1/2)", "why_tests_cant": "all lengths and orderings", "anchors": ["diffmah/utils.py:trimmed_mean"]}
{"id": "C26", "title": "Trimming nothing gives the ordinary mean", "statement": "trimmed_mean(x, 0) should equal the mean of x (the docstring promises equivalence with scipy.stats.mstats.trimmed_mean).", "quantifier": "every array", "why_tests_cant": "a handful of sample arrays cannot show for which arrays the percentile edges are dropped", "anchors": ["diffmah/utils.py:trimmed_mean"]}
{"id": "C27", "title": "Trimmed variance is the unbiased variance of the retained points", "statement": "trimmed_mean_and_variance returns the same mean as trimmed_mean and sum (x_i-mu)^2/(m-1) over the m >= 2 retained points, which is >= 0; with m = 1 it is NaN.", "quantifier": "every array, every p", "why_tests_cant": "all lengths", "anchors": ["diffmah/utils.py:trimmed_mean_and_variance"]}
{"id": "C28", "title": "get_1d_arrays broadcasts scalars and nothing else", "statement": "All returned arrays have the common length; length-npts inputs are returned unchanged, size-1 inputs are repeated; if some input has a size other than 1 or the maximum the call raises AssertionError.", "quantifier": "every list of inputs", "why_tests_cant": "all combinations of sizes", "anchors": ["diffmah/utils.py:get_1d_arrays"]}
{"id": "C29", "title": "Skip decision and no-fit result", "statement": "diffmah_fitter skips the optimiser exactly when force_skip_fit is set or fewer than 3 target points lie below the final target mass; then every parameter and the loss are -99, fit_terminates is False and code_used is -1. Otherwise code_used is 0 or 1 and skip_fit is False.", "quantifier": "every input history and option", "why_tests_cant": "all histories", "anchors": ["diffmah/fitting_helpers/diffmah_fitter_helpers.py:diffmah_fitter", "diffmah/fitting_helpers/diffmah_fitter_helpers.py:get_loss_data", "diffmah/fitting_helpers/diffmah_fitter_helpers.py:_compute_non_trivial_npts_in_log_mah_target"]}
{"id": "C30", "title": "Fitted parameters are always valid", "statement": "Whenever the fitter runs and the optimiser returns finite values, p_best lies strictly inside the bounds with late_index < early_index.", "quantifier": "every history, every optimiser behaviour", "why_tests_cant": "no test can enumerate optimiser trajectories", "anchors": ["diffmah/fitting_helpers/diffmah_fitter_helpers.py:diffmah_fitter"]}
{"id": "C31", "title": "t_peak is not fitted", "statement": "p_best.t_peak equals tpeak_fixed (rounded to single precision) if given and inside (0.05, 20), else the time at which the history first reaches its final value; the optimiser cannot change it.", "quantifier": "every history, every optimiser behaviour", "why_tests_cant": "all optimiser trajectories", "anchors": ["diffmah/fitting_helpers/diffmah_fitter_helpers.py:diffmah_fitter", "diffmah/fitting_helpers/diffmah_fitter_helpers.py:get_loss_data", "diffmah/fitting_helpers/diffmah_fitter_helpers.py:log_mah_loss_uparams"]}
{"id": "C32", "title": "Inferred peak time is the first time at the peak", "statement": "For every non-decreasing history, compute_indx_t_peak_singlehalo returns the least index whose value equals the maximum; every earlier value is strictly smaller. (For a non-monotone history it returns the first index equal to the last value, which need not be the peak.)", "quantifier": "every non-empty history", "why_tests_cant": "all lengths and plateaus", "anchors": ["diffmah/fitting_helpers/diffmah_fitter_helpers.py:compute_indx_t_peak_singlehalo", "diffmah/fitting_helpers/diffmah_fitter_helpers.py:compute_indx_t_peak_halopop"]}
{"id": "C33", "title": "Only points inside the cuts are used", "statement": "The target times are exactly, in order, the input times t >= t_fit_min whose log mass exceeds both lgm_min and (final log mass - dlogm_cut); by default those from 1 Gyr on at which the halo has more than 10^-2.5 of its final mass.", "quantifier": "every history and cut", "why_tests_cant": "all histories", "anchors": ["diffmah/fitting_helpers/diffmah_fitter_helpers.py:_get_target_data"]}
{"id": "C34", "title": "Target history is a running peak", "statement": "log_mah_target has the same length as t_target, is non-decreasing, dominates the selected input values, and equals them when they are already non-decreasing.", "quantifier": "every history and cut", "why_tests_cant": "all histories", "anchors": ["diffmah/fitting_helpers/diffmah_fitter_helpers.py:_get_target_data", "diffmah/fitting_helpers/diffmah_fitter_helpers.py:get_loss_data"]}
{"id": "C35", "title": "lgm_min removes low-mass points", "statement": "No input point with mass <= 10**lgm_min should enter the target data.", "quantifier": "every history, every finite lgm_min", "why_tests_cant": "a single clipped point refutes it; the mask and the clip interact", "anchors": ["diffmah/fitting_helpers/diffmah_fitter_helpers.py:_get_clipped_log_mah", "diffmah/fitting_helpers/diffmah_fitter_helpers.py:_get_target_data"]}
{"id": "C36", "title": "Optimiser fallback decision", "statement": "bfgs_adam_fallback returns the L-BFGS result with code 0 iff L-BFGS reports success with a finite positive loss; otherwise it returns exactly the Adam result with code 1.", "quantifier": "every optimiser outcome", "why_tests_cant": "all outcomes including NaN, inf, zero loss", "anchors": ["diffmah/fitting_helpers/bfgs_wrapper.py:bfgs_adam_fallback", "diffmah/fitting_helpers/bfgs_wrapper.py:scipy_lbfgs_wrapper"]}
{"id": "C37", "title": "Adam returns the best step it visited", "statement": "With tol = 0 and a non-negative loss, the returned loss is the minimum of the loss history and the returned parameters are the ones visited at that step.", "quantifier": "every loss function, optimiser, number of steps >= 1", "why_tests_cant": "all trajectories", "anchors": ["diffmah/fitting_helpers/fit_utils.py:_jax_adam_wrapper", "diffmah/fitting_helpers/fit_utils.py:jax_adam_wrapper"]}
{"id": "C38", "title": "Non-finite values stop Adam and are reported", "statement": "If any visited parameter, loss or gradient is non-finite the run stops at that step, the histories are truncated to the steps before it and fit_terminates is 0; if none is (and tol is not reached) the history has n_step entries and fit_terminates is 1.", "quantifier": "every trajectory", "why_tests_cant": "all trajectories and failure points", "anchors": ["diffmah/fitting_helpers/fit_utils.py:_jax_adam_wrapper", "diffmah/fitting_helpers/fit_utils.py:jax_adam_wrapper"]}
{"id": "C39", "title": "Adam never returns a worse fit than its starting point", "statement": "For a deterministic loss that is finite at the starting point the returned loss is at most the loss at params_init, including after any number of warmup rounds.", "quantifier": "every loss function, warmup count and step count", "why_tests_cant": "all trajectories; couples warmup and main loops", "anchors": ["diffmah/fitting_helpers/fit_utils.py:jax_adam_wrapper"]}
{"id": "C40", "title": "Fit loss is a genuine mean-square distance", "statement": "log_mah_loss_uparams is >= 0 and is zero iff the predicted history equals the target at every target time.", "quantifier": "every u_params and non-empty target", "why_tests_cant": "tests evaluate a handful of sampled points; the claim is about a continuum of inputs", "anchors": ["diffmah/fitting_helpers/diffmah_fitter_helpers.py:log_mah_loss_uparams", "diffmah/fitting_helpers/diffmah_fitter_helpers.py:_mse"]}
{"id": "C41", "title": "Fit gradient is the gradient of the fit loss", "statement": "Each component of the gradient returned by loss_and_grads_kern is the partial derivative of log_mah_loss_uparams with respect to that unbounded parameter.", "quantifier": "every u_params, every target with positive times", "why_tests_cant": "equality with a limit at every point", "anchors": ["diffmah/fitting_helpers/diffmah_fitter_helpers.py:loss_and_grads_kern", "diffmah/fitting_helpers/diffmah_fitter_helpers.py:log_mah_loss_uparams"]}
{"id": "C42", "title": "Result line round-trips", "statement": "_parse_outline(get_outline(res)) recovers the printed parameters, loss, point count and algorithm code; it should also do so for lines written with halo_id.", "quantifier": "every fit result", "why_tests_cant": "all results; string formatting", "anchors": ["diffmah/fitting_helpers/diffmah_fitter_helpers.py:get_outline", "diffmah/fitting_helpers/diffmah_fitter_helpers.py:_parse_outline"]}
{"id": "C43", "title": "Collated file keeps every column under its own name", "statement": "write_collated_data stores, for 8- or 9-column tables, each column under the name printed in the header, in row order; tables of other widths should not be silently dropped.", "quantifier": "every table", "why_tests_cant": "all table sizes", "anchors": ["diffmah/fitting_helpers/diffmah_fitter_helpers.py:write_collated_data", "diffmah/fitting_helpers/diffmah_fitter_helpers.py:HEADER", "diffmah/fitting_helpers/diffmah_fitter_helpers.py:HEADER_HALO_ID"]}
{"id": "C44", "title": "Parallel fitting is serial fitting", "statement": "Splitting haloes over any number of ranks, fitting, writing per-rank text files and collating gives the same table as fitting all haloes in order on one rank.", "quantifier": "every number of haloes and ranks", "why_tests_cant": "all (n_halos, n_ranks) pairs, including ranks with zero or one halo", "anchors": ["scripts/fitting_scripts/tng_diffmah_fitter_script.py", "scripts/fitting_scripts/bolshoi_planck_fitting_script.py", "scripts/fitting_scripts/galacticus_diffmah_fitter_script.py"]}
{"id": "C45", "title": "Target moments are normalised to the sample mass", "statement": "measure_target_data rescales each halo to end at 10**logmp_sample; so at the final time the mean mass is 10**logmp_sample, the mean log mass is logmp_sample (for logmp_sample >= 0) and the variance of log mass is zero.", "quantifier": "every population with positive masses", "why_tests_cant": "all populations and sizes", "anchors": ["diffmah/fitting_helpers/measure_mahs.py:measure_target_data"]}
{"id": "C46", "title": "Outlier mask only removes haloes that are outliers at some time", "statement": "get_clean_sample_mask keeps a halo iff its |z-score| is below z_cut at every time index in [it_min, n_t-1); it is unaffected by adding a constant to any halo's log history and by the value of logmp_sample.", "quantifier": "every table", "why_tests_cant": "all tables", "anchors": ["diffmah/fitting_helpers/measure_mahs.py:get_clean_sample_mask"]}
{"id": "C47", "title": "Population parameters stay inside their bounds and round-trip", "statement": "For every component model the bounded parameters from any finite u_params lie strictly inside the component's bounds, and bounding/unbounding are mutually inverse.", "quantifier": "every u_params of every component", "why_tests_cant": "continuum of inputs", "anchors": ["diffmah/diffmahpop_kernels/bimod_logm0_kernels/logm0_c0_early.py:get_bounded_c0_params", "diffmah/diffmahpop_kernels/bimod_logm0_kernels/logm0_c0_early.py:get_unbounded_c0_params", "diffmah/diffmahpop_kernels/bimod_logm0_kernels/logm0_c0_late.py:get_bounded_c0_params", "diffmah/diffmahpop_kernels/bimod_logm0_kernels/logm0_c0_late.py:get_unbounded_c0_params", "diffmah/diffmahpop_kernels/bimod_logm0_kernels/logm0_c1_early.py:get_bounded_c1_params", "diffmah/diffmahpop_kernels/bimod_logm0_kernels/logm0_c1_early.py:get_unbounded_c1_params", "diffmah/diffmahpop_kernels/bimod_logm0_kernels/logm0_c1_late.py:get_bounded_c1_params", "diffmah/diffmahpop_kernels/bimod_logm0_kernels/logm0_c1_late.py:get_unbounded_c1_params", "diffmah/diffmahpop_kernels/bimod_logm0_kernels/logm0_pop_bimod.py:get_bounded_m0pop_params", "diffmah/diffmahpop_kernels/bimod_logm0_kernels/logm0_pop_bimod.py:get_unbounded_m0pop_params", "diffmah/diffmahpop_kernels/bimod_logm0_kernels/logm0_pop_early.py:get_bounded_m0pop_params", "diffmah/diffmahpop_kernels/bimod_logm0_kernels/logm0_pop_early.py:get_unbounded_m0pop_params", "diffmah/diffmahpop_kernels/bimod_logm0_kernels/logm0_pop_late.py:get_bounded_m0pop_params", "diffmah/diffmahpop_kernels/bimod_logm0_kernels/logm0_pop_late.py:get_unbounded_m0pop_params", "diffmah/diffmahpop_kernels/bimod_logm0_sats/logm0_c0_early.py:get_bounded_c0_params", "diffmah/diffmahpop_kernels/bimod_logm0_sats/logm0_c0_early.py:get_unbounded_c0_params", "diffmah/diffmahpop_kernels/bimod_logm0_sats/logm0_c0_late.py:get_bounded_c0_params", "diffmah/diffmahpop_kernels/bimod_logm0_sats/logm0_c0_late.py:get_unbounded_c0_params", "diffmah/diffmahpop_kernels/bimod_logm0_sats/logm0_c1_early.py:get_bounded_c1_params", "diffmah/diffmahpop_kernels/bimod_logm0_sats/logm0_c1_early.py:get_unbounded_c1_params", "diffmah/diffmahpop_kernels/bimod_logm0_sats/logm0_c1_late.py:get_bounded_c1_params", "diffmah/diffmahpop_kernels/bimod_logm0_sats/logm0_c1_late.py:get_unbounded_c1_params", "diffmah/diffmahpop_kernels/bimod_logm0_sats/logm0_pop_bimod_sats.py:get_bounded_m0pop_params", "diffmah/diffmahpop_kernels/bimod_logm0_sats/logm0_pop_bimod_sats.py:get_unbounded_m0pop_params", "diffmah/diffmahpop_kernels/bimod_logm0_sats/logm0_pop_early.py:get_bounded_m0pop_params", "diffmah/diffmahpop_kernels/bimod_logm0_sats/logm0_pop_early.py:get_unbounded_m0pop_params", "diffmah/diffmahpop_kernels/bimod_logm0_sats/logm0_pop_late.py:get_bounded_m0pop_params", "diffmah/diffmahpop_kernels/bimod_logm0_sats/logm0_pop_late.py:get_unbounded_m0pop_params", "diffmah/diffmahpop_kernels/covariance_kernels.py:get_bounded_cov_params", "diffmah/diffmahpop_kernels/covariance_kernels.py:get_unbounded_cov_params", "diffmah/diffmahpop_kernels/early_index_alpha.py:get_bounded_early_index_params", "diffmah/diffmahpop_kernels/early_index_alpha.py:get_unbounded_early_index_params", "diffmah/diffmahpop_kernels/early_index_beta.py:get_bounded_early_index_params", "diffmah/diffmahpop_kernels/early_index_beta.py:get_unbounded_early_index_params", "diffmah/diffmahpop_kernels/early_index_bimod.py:get_bounded_early_index_params", "diffmah/diffmahpop_kernels/early_index_bimod.py:get_unbounded_early_index_params", "diffmah/diffmahpop_kernels/early_index_pop.py:get_bounded_early_index_params", "diffmah/diffmahpop_kernels/early_index_pop.py:get_unbounded_early_index_params", "diffmah/diffmahpop_kernels/frac_early_cens.py:get_bounded_fec_params", "diffmah/diffmahpop_kernels/frac_early_cens.py:get_unbounded_fec_params", "diffmah/diffmahpop_kernels/ftpt0_cens.py:get_bounded_ftpt0_params", "diffmah/diffmahpop_kernels/ftpt0_cens.py:get_unbounded_ftpt0_params", "diffmah/diffmahpop_kernels/late_index_alpha.py:get_bounded_late_index_params", "diffmah/diffmahpop_kernels/late_index_alpha.py:get_unbounded_late_index_params", "diffmah/diffmahpop_kernels/late_index_beta.py:get_bounded_late_index_params", "diffmah/diffmahpop_kernels/late_index_beta.py:get_unbounded_late_index_params", "diffmah/diffmahpop_kernels/late_index_bimod.py:get_bounded_late_index_params", "diffmah/diffmahpop_kernels/late_index_bimod.py:get_unbounded_late_index_params", "diffmah/diffmahpop_kernels/logtc_bimod.py:get_bounded_logtc_params", "diffmah/diffmahpop_kernels/logtc_bimod.py:get_unbounded_logtc_params", "diffmah/diffmahpop_kernels/logtc_early.py:get_bounded_logtc_params", "diffmah/diffmahpop_kernels/logtc_early.py:get_unbounded_logtc_params", "diffmah/diffmahpop_kernels/logtc_late.py:get_bounded_logtc_params", "diffmah/diffmahpop_kernels/logtc_late.py:get_unbounded_logtc_params", "diffmah/diffmahpop_kernels/t_peak_kernels/tp_pdf_cens.py:get_bounded_tp_cens_params", "diffmah/diffmahpop_kernels/t_peak_kernels/tp_pdf_cens.py:get_unbounded_tp_cens_params", "diffmah/diffmahpop_kernels/t_peak_kernels/tp_pdf_cens_flex.py:get_bounded_tp_cens_params", "diffmah/diffmahpop_kernels/t_peak_kernels/tp_pdf_cens_flex.py:get_unbounded_tp_cens_params", "diffmah/diffmahpop_kernels/t_peak_kernels/tp_pdf_sats.py:get_bounded_tp_sat_params", "diffmah/diffmahpop_kernels/t_peak_kernels/tp_pdf_sats.py:get_unbounded_tp_sat_params", "diffmah/diffmahpop_kernels/t_peak_kernels/utp_pdf_kernels.py:get_bounded_utp_params", "diffmah/diffmahpop_kernels/t_peak_kernels/utp_pdf_kernels.py:get_unbounded_utp_params"]}
{"id": "C48", "title": "Late-index parameters round-trip", "statement": "late_index_bimod.get_unbounded/get_bounded should be mutually inverse on all six parameters (alpha and beta).", "quantifier": "every u_params", "why_tests_cant": "tests only use defaults where alpha equals beta", "anchors": ["diffmah/diffmahpop_kernels/late_index_bimod.py:get_bounded_late_index_params", "diffmah/diffmahpop_kernels/late_index_bimod.py:get_unbounded_late_index_params"]}
{"id": "C49", "title": "Whole-model parameters round-trip", "statement": "get_diffmahpop_u_params_from_params(get_diffmahpop_params_from_u_params(u)) = u for every u.", "quantifier": "every u_params", "why_tests_cant": "tests only use the default parameters", "anchors": ["diffmah/diffmahpop_kernels/bimod_censat_params.py:get_diffmahpop_params_from_u_params", "diffmah/diffmahpop_kernels/bimod_censat_params.py:get_diffmahpop_u_params_from_params"]}
{"id": "C50", "title": "Merging and excluding parameters loses nothing", "statement": "Component dictionaries do not collide; get_component_model_params partitions the full parameter set; excluding names and merging the varied parameters back over the defaults restores the full set.", "quantifier": "every parameter assignment, every exclusion list", "why_tests_cant": "all subsets of names", "anchors": ["diffmah/diffmahpop_kernels/bimod_censat_params.py:get_component_model_params", "diffmah/diffmahpop_kernels/bimod_censat_params.py:get_varied_params_by_exclusion", "diffmah/diffmahpop_kernels/bimod_censat_params.py:_get_all_diffmahpop_params_from_varied"]}
{"id": "C51", "title": "Population covariance is always a covariance", "statement": "For every finite u_params and every mass the 4x4 covariance is symmetric positive definite with diagonal std**2 and correlations inside (-0.3, 0.3).", "quantifier": "every u_params, every mass", "why_tests_cant": "tests draw 200 random parameter sets", "anchors": ["diffmah/diffmahpop_kernels/covariance_kernels.py:_get_diffmahpop_cov", "diffmah/diffmahpop_kernels/covariance_kernels.py:get_bounded_cov_params"]}
{"id": "C52", "title": "Early fraction is a probability", "statement": "_frac_early_cens_kern lies strictly between 1/4 and 3/4 for every bounded parameter set, mass and time.", "quantifier": "every input", "why_tests_cant": "tests evaluate a handful of sampled points; the claim is about a continuum of inputs", "anchors": ["diffmah/diffmahpop_kernels/frac_early_cens.py:_frac_early_cens_kern"]}
{"id": "C53", "title": "Predicted mean shape parameters are valid", "statement": "Predicted logtc, early_index, late_index lie strictly inside the single-halo bounds and early_index > late_index for every population parameter set, mass, observed time and peak time.", "quantifier": "every input", "why_tests_cant": "tests evaluate a handful of sampled points; the claim is about a continuum of inputs", "anchors": ["diffmah/diffmahpop_kernels/early_index_alpha.py:_pred_early_index_kern", "diffmah/diffmahpop_kernels/late_index_alpha.py:_pred_late_index_kern", "diffmah/diffmahpop_kernels/logtc_early.py:_pred_logtc_kern"]}
{"id": "C54", "title": "Predicted present-day mass increases with observed mass", "statement": "_pred_logm0_kern is strictly increasing in lgm_obs, with slope at least 1.", "quantifier": "every parameter set, time and peak time", "why_tests_cant": "tests evaluate a handful of sampled points; the claim is about a continuum of inputs", "anchors": ["diffmah/diffmahpop_kernels/bimod_logm0_kernels/logm0_pop_early.py:_pred_logm0_kern"]}
{"id": "C55", "title": "Predicted mean parameters are always valid single-halo parameters", "statement": "Mean population parameters should lie inside MAH_PBOUNDS for every observed mass and time.", "quantifier": "every input", "why_tests_cant": "the failing region (very massive haloes at early times) is outside what tests sample", "anchors": ["diffmah/diffmahpop_kernels/mc_bimod_cens.py:_mean_diffmah_params", "diffmah/diffmahpop_kernels/bimod_logm0_kernels/logm0_pop_early.py:_pred_logm0_kern"]}
{"id": "C56", "title": "Central peak times are physical", "statement": "mc_tpeak_singlecen lies in [0.05 t_0, t_0] for every draw, is non-decreasing in the uniform draw, and inverts the tabulated CDF at the table nodes.", "quantifier": "every parameter set and draw", "why_tests_cant": "all random draws", "anchors": ["diffmah/diffmahpop_kernels/t_peak_kernels/tp_pdf_cens_flex.py:mc_utp_singlecen", "diffmah/diffmahpop_kernels/t_peak_kernels/tp_pdf_cens_flex.py:mc_tpeak_singlecen"]}
{"id": "C57", "title": "Satellite peak times are physical", "statement": "mc_tpeak_singlesat lies strictly between 0.1 t_obs and t_obs for every parameter set and draw.", "quantifier": "every parameter set and draw", "why_tests_cant": "all random draws", "anchors": ["diffmah/diffmahpop_kernels/t_peak_kernels/utp_pdf_kernels.py:mc_tp_pdf_singlesat", "diffmah/diffmahpop_kernels/t_peak_kernels/tp_pdf_sats.py:mc_tpeak_singlesat"]}
{"id": "C58", "title": "Monte Carlo haloes are always valid", "statement": "Every halo returned by mc_diffmah_cenpop / mc_diffmah_satpop / mc_cenpop has parameters strictly inside the bounds with late < early, whatever the random draws, whenever the mean parameters are valid.", "quantifier": "every parameter set, population size, random stream", "why_tests_cant": "all random streams", "anchors": ["diffmah/diffmahpop_kernels/mc_bimod_cens.py:mc_diffmah_cenpop", "diffmah/diffmahpop_kernels/mc_bimod_sats.py:mc_diffmah_satpop"]}
{"id": "C59", "title": "Each Monte Carlo halo is exactly its early or its late draw", "statement": "In the returned population halo i equals row i of the early sample if mc_early[i] and row i of the late sample otherwise, for all five parameters together.", "quantifier": "every population size, every random stream", "why_tests_cant": "all random streams", "anchors": ["diffmah/diffmahpop_kernels/mc_bimod_cens.py:mc_diffmah_cenpop", "diffmah/diffmahpop_kernels/param_utils.py:mc_select_diffmah_params"]}
{"id": "C60", "title": "A supplied t_peak is honoured", "statement": "mc_diffmah_cenpop(..., t_peak=tp) returns haloes whose t_peak equals tp for every tp in (0.05, 20).", "quantifier": "every population and random stream", "why_tests_cant": "all random streams", "anchors": ["diffmah/diffmahpop_kernels/mc_bimod_cens.py:mc_diffmah_params_singlecen"]}
{"id": "C61", "title": "Monte Carlo histories match Monte Carlo parameters", "statement": "The dmhdt and log_mah returned by mc_cenpop / mc_satpop equal mah_halopop evaluated on the returned mah_params.", "quantifier": "every population and random stream", "why_tests_cant": "all random streams", "anchors": ["diffmah/diffmahpop_kernels/mc_bimod_cens.py:mc_cenpop"]}
{"id": "C62", "title": "Predicted moments are moments of the mixture", "statement": "predict_mah_moments_singlebin returns the mean and standard deviation of the two-component mixture: weights are non-negative and sum to one, the mean lies between the smallest and largest sampled log mass and var = E[x^2] - mean^2 >= 0.", "quantifier": "every sample size >= 1 and sample", "why_tests_cant": "all samples", "anchors": ["diffmah/diffmahpop_kernels/mc_bimod_cens.py:predict_mah_moments_singlebin"]}
{"id": "C63", "title": "Population losses are non-negative and vanish only on exact agreement", "statement": "Each moments loss is >= 0 and zero iff mean and std agree with the targets in every bin at every time; the combined loss is zero iff both are.", "quantifier": "every prediction and target", "why_tests_cant": "all inputs", "anchors": ["diffmah/diffmahpop_kernels/bimod_cens_fithelp.py:loss_mah_moments_multibin", "diffmah/diffmahpop_kernels/bimod_censat_fithelp.py:loss_mah_moments_multibin_censat"]}
{"id": "C64", "title": "Random keys are never used twice", "statement": "Within one call no PRNG key is consumed by two draws.", "quantifier": "every key", "why_tests_cant": "statistical tests do not see a deterministic key collision", "anchors": ["diffmah/diffmahpop_kernels/mc_bimod_cens.py:mc_diffmah_params_singlecen", "diffmah/diffmahpop_kernels/mc_bimod_cens.py:_mean_diffmah_params_early"]}
{"id": "C65", "title": "Fraction peaked today is a probability increasing with mass and time", "statement": "_ftpt0_kernel lies in [0.01, 0.99] and is non-decreasing in lgm_obs and in t_obs for bounded parameters.", "quantifier": "every input", "why_tests_cant": "tests evaluate a handful of sampled points; the claim is about a continuum of inputs", "anchors": ["diffmah/diffmahpop_kernels/ftpt0_cens.py:_ftpt0_kernel"]}
{"id": "C66", "title": "The central t_peak CDF reaches one", "statement": "The t_peak CDF of centrals should go from 0 to 1 as t_peak goes to t_0.", "quantifier": "every parameter set and t_0", "why_tests_cant": "needs the exact limit value", "anchors": ["diffmah/diffmahpop_kernels/t_peak_kernels/tp_pdf_cens.py:_t_peak_cens_cdf_kern"]}
{"id": "C67", "title": "Named tuples survive HDF5", "statement": "load_namedtuple_from_hdf5(write_namedtuple_to_hdf5(nt)) returns the same field names in the same order with the same values, for every named tuple whose field names are ASCII and accepted by namedtuple; a non-ASCII name is refused when writing, a name starting with an underscore when reading.", "quantifier": "every named tuple", "why_tests_cant": "all field sets; HDF5 lists keys alphabetically so order must come from the attribute", "anchors": ["diffmah/data_loaders/io_utils.py:write_namedtuple_to_hdf5", "diffmah/data_loaders/io_utils.py:load_namedtuple_from_hdf5"]}
{"id": "C68", "title": "load_flat_hdf5 returns exactly the requested rows and columns", "statement": "The result has the requested keys (all keys if None), each holding rows [istart, iend); consecutive chunks concatenate to the whole file. With a dataset prefix, output keys are the bare column names (for any dataset path).", "quantifier": "every file, key list, slice", "why_tests_cant": "all files and slices", "anchors": ["diffmah/data_loaders/io_utils.py:load_flat_hdf5"]}
{"id": "C69", "title": "Scatter is a balanced partition", "statement": "_scatter_nd gives rank r the r-th contiguous block; blocks concatenate in rank order to the input, sizes differ by at most one, and every non-root rank receives exactly one message.", "quantifier": "every array length, rank count, root", "why_tests_cant": "all (n, ranks, root)", "anchors": ["diffmah/data_loaders/load_hacc_mahs.py:_scatter_nd", "diffmah/data_loaders/load_hacc_mahs.py:load_mahs_per_rank"]}
{"id": "C70", "title": "Loaders return cumulative peak masses", "statement": "Histories returned by the HACC, BPL, TNG and published-data loaders are non-decreasing in time, dominate the raw masses (after unit conversion) and are unchanged if the raw history was already non-decreasing (log-mass data: provided every mass is zero, meaning no progenitor, or at least one; below one the order is not preserved).", "quantifier": "every raw table", "why_tests_cant": "all tables", "anchors": ["diffmah/data_loaders/load_hacc_mahs.py:load_mahs", "diffmah/data_loaders/load_bpl_um_data.py:load_bpl_mah_data", "diffmah/data_loaders/load_tng_mahs.py:load_tng_data", "diffmah/data_loaders/load_diffmah_pub_data.py:load_bolshoi_data"]}
{"id": "C71", "title": "Unchunking preserves every fit", "statement": "Collating the chunk files of a range of subvolumes, with the same columns in the chunks of a subvolume and an input directory whose name has no characters special to the shell, yields for every column the concatenation in chunk order, deletes the chunk files and touches nothing else. Wherever the script is killed, and however often it is run again with whatever ranges, for every subvolume either all chunk files are intact or the output file is complete.", "quantifier": "every chunk content and subvolume range, every crash point, every sequence of re-runs", "why_tests_cant": "all crash points of all runs", "anchors": ["scripts/fitting_scripts/unchunk_last_journey_script.py", "scripts/fitting_scripts/hacc_lastjourney_diffmah_fitter_script.py"]}
{"id": "C72", "title": "Rescaled target histories end at the observed mass", "statement": "rescale_target_log_mahs makes every history end exactly at lgm_obs and preserves all within-history differences; get_target_mah_params selects exactly the haloes within the bin, keeping all columns aligned.", "quantifier": "every table", "why_tests_cant": "all tables", "anchors": ["diffmah/diffmahpop_kernels/load_diffmahpop_fitdata.py:rescale_target_log_mahs", "scripts/diffmahpop_tabulation/smdpl_diffmahpop_utils.py:get_target_mah_params"]}
{"id": "C73", "title": "Failed fits are excluded from population targets", "statement": "load_diffmah_subvolume should discard every halo the fitter skipped.", "quantifier": "every fit catalogue", "why_tests_cant": "needs both writer and reader conventions", "anchors": ["scripts/diffmahpop_tabulation/smdpl_diffmahpop_utils.py:load_diffmah_subvolume", "diffmah/fitting_helpers/diffmah_fitter_helpers.py:NOFIT_FILL"]}
{"id": "C74", "title": "Default command lines process every subvolume", "statement": "Running the fitting scripts with default istart/iend should fit every available subvolume.", "quantifier": "every number of subvolumes", "why_tests_cant": "all counts; Python slice semantics with negative end", "anchors": ["scripts/fitting_scripts/hacc_lastjourney_diffmah_fitter_script.py", "scripts/fitting_scripts/hacc_discovery_sims_diffmah_fitter_script.py"]}
{"id": "C75", "title": "Target loading succeeds on valid tables", "statement": "load_diffmahpop_targets / tabulate_target_means_vars should return the target tables for every valid input table, and write_mean_variance_to_disk should write them to its two output files.", "quantifier": "every input table", "why_tests_cant": "depends on call arity for every non-empty table", "anchors": ["diffmah/diffmahpop_kernels/load_diffmahpop_fitdata.py:_attach_samples", "scripts/diffmahpop_tabulation/smdpl_diffmahpop_utils.py:tabulate_target_means_vars", "scripts/diffmahpop_tabulation/smdpl_diffmahpop_utils.py:write_mean_variance_to_disk"]}
{"id": "C76", "title": "Galacticus rank split works for any rank count", "statement": "The rank's [istart, iend) slices tile all haloes for every number of ranks.", "quantifier": "every (n_halos, n_ranks)", "why_tests_cant": "more ranks than haloes is never tested", "anchors": ["scripts/fitting_scripts/galacticus_diffmah_fitter_script.py"]}
{"id": "C77", "title": "Chunk output file names are unique and agree between scripts", "statement": "Distinct (subvolume, chunk) pairs write distinct output names; temporary rank files of other chunks are never matched by the clean-up pattern; sorted by name, the outputs of a subvolume are in chunk order.", "quantifier": "every subvolume, chunk, rank number", "why_tests_cant": "all numbers of digits", "anchors": ["scripts/fitting_scripts/hacc_lastjourney_diffmah_fitter_script.py", "scripts/fitting_scripts/unchunk_last_journey_script.py"]}
{"id": "C78", "title": "Sloped sigmoid passes through its pivot", "statement": "_sig_slope equals ytp at x = xtp and elsewhere lies between the two straight lines through the pivot with slopes lo and hi.", "quantifier": "every x and parameter set", "why_tests_cant": "all inputs", "anchors": ["diffmah/utils.py:_sig_slope"]}
{"id": "C79", "title": "Reported loss belongs to the reported parameters", "statement": "The loss returned by the Adam wrapper is the loss at the visited point it returns, or the placeholder 999.99 together with an empty history; the loss returned by diffmah_fitter is the mean squared distance of the history predicted by p_best from the target.", "quantifier": "every optimiser, loss and start", "why_tests_cant": "all optimiser trajectories", "anchors": ["diffmah/fitting_helpers/fit_utils.py:jax_adam_wrapper", "diffmah/fitting_helpers/diffmah_fitter_helpers.py:diffmah_fitter"]}
{"id": "C80", "title": "Degenerate optimiser settings raise", "statement": "With n_step = 0 the Adam wrapper raises ValueError; with no warmup and an infinite tolerance it raises UnboundLocalError; nothing is silently returned.", "quantifier": "every loss and optimiser", "why_tests_cant": "corner settings are never tested", "anchors": ["diffmah/fitting_helpers/fit_utils.py:jax_adam_wrapper"]}
{"id": "C81", "title": "Target moments are population moments", "statement": "At every tabulated time the five arrays of measure_target_data are the mean mass, mean log mass, variance of log mass, mean growth rate and variance of growth rate of the rescaled population.", "quantifier": "every population with positive masses, every increasing time table", "why_tests_cant": "all populations; interpolation is done in log and must not change tabulated values", "anchors": ["diffmah/fitting_helpers/measure_mahs.py:measure_target_data"]}
{"id": "C82", "title": "Target moments depend only on history shapes", "statement": "Multiplying any halo's history and growth rate by a positive constant leaves every output of measure_target_data unchanged.", "quantifier": "every population, every set of positive factors", "why_tests_cant": "all populations", "anchors": ["diffmah/fitting_helpers/measure_mahs.py:measure_target_data"]}
{"id": "C83", "title": "Halo scatter is Gaussian in the unbounded space", "statement": "Given valid mean parameters, the unbounded logm0, logtc, early_index and late_index of the early (late) draw of a halo are the generator's multivariate-normal draw around the unbounded mean parameters, with the symmetric positive-definite covariance of the halo's observed mass; t_peak is not scattered, and the early and late draws use different keys.", "quantifier": "every in-bounds parameter set, observed mass and time, key, random stream", "why_tests_cant": "tests look at one seed; the law must hold for every stream", "anchors": ["diffmah/diffmahpop_kernels/mc_bimod_cens.py:mc_diffmah_params_singlecen", "diffmah/diffmahpop_kernels/mc_bimod_sats.py:mc_diffmah_params_singlesat"]}
{"id": "C84", "title": "Early, late, central and satellite predictions use their own parameters", "statement": "The mean early (late) parameters of centrals depend only on population parameters named *_early and *_alpha (*_late and *_beta); those of satellites in addition on *_early_sats (*_late_sats). Changing any other parameter changes nothing.", "quantifier": "every pair of parameter sets that agree on those names, every observed mass, time and peak time", "why_tests_cant": "independence quantifies over all pairs of parameter sets", "anchors": ["diffmah/diffmahpop_kernels/mc_bimod_cens.py:_mean_diffmah_params_t_peak", "diffmah/diffmahpop_kernels/mc_bimod_sats.py:_mean_diffmah_params_t_peak"]}
{"id": "C85", "title": "Collating the ranks loses no fit", "statement": "After a chunk is fitted, rank 0 reads the files of all ranks, writes the collated file and only then deletes the rank files: wherever it is killed, either the files of all ranks are there or the collated file is complete; no other file changes; if some rank had fewer than two haloes it raises and changes nothing.", "quantifier": "every number of ranks, every list of results per rank, every other content of the file system, every crash point", "why_tests_cant": "all crash points and file system contents", "anchors": ["scripts/fitting_scripts/hacc_lastjourney_diffmah_fitter_script.py", "scripts/fitting_scripts/hacc_discovery_sims_diffmah_fitter_script.py", "diffmah/fitting_helpers/diffmah_fitter_helpers.py:write_collated_data"]}
{"id": "C86", "title": "The schedule of the ranks does not matter", "statement": "In whatever order the processes of a parallel run do their work between the barriers, the collated file of a chunk is the one that a single process would write.", "quantifier": "every catalogue, number of ranks and interleaving", "why_tests_cant": "interleavings cannot be enumerated by tests", "anchors": ["scripts/fitting_scripts/hacc_lastjourney_diffmah_fitter_script.py", "diffmah/fitting_helpers/diffmah_fitter_helpers.py:get_outline", "diffmah/fitting_helpers/diffmah_fitter_helpers.py:write_collated_data"]}
{"id": "C87", "title": "The whole Last Journey run equals a serial run", "statement": "After the fitter has run over all subvolumes and chunks on any number of ranks, and the chunks have been collated, each subvolume has exactly the file that a single process would write for the haloes of all its chunks in order, and no chunk file remains. A crash during any chunk leaves every chunk finished before it intact; running again from any state of the files gives the same result. This should hold for every catalogue.", "quantifier": "every fitting function, catalogue, number of ranks, list of subvolumes, schedule of the ranks, initial file system and crash point", "why_tests_cant": "interleavings, crash points and catalogues cannot be enumerated", "anchors": ["scripts/fitting_scripts/hacc_lastjourney_diffmah_fitter_script.py", "scripts/fitting_scripts/unchunk_last_journey_script.py", "diffmah/fitting_helpers/diffmah_fitter_helpers.py:write_collated_data"]}
{"id": "C88", "title": "Component losses measure the misfit", "statement": "Each loss of a component model (early_index, logtc, logm0, peak times, fraction of peaked centrals) is the mean over the data of the squared (for the fractions of all mass bins: absolute) difference between prediction and target: never negative, zero exactly when every target is predicted; logm0 sums it over the data sets. The gradients returned for early_index and logtc are the derivatives of the loss with respect to each unbounded parameter.", "quantifier": "every parameter vector, every non-empty data set, every copy of the component", "why_tests_cant": "all parameters and data; finite differences only sample", "anchors": ["diffmah/diffmahpop_kernels/early_index_pop.py:_loss_kern", "diffmah/diffmahpop_kernels/bimod_logm0_kernels/logm0_c0_early.py:global_loss_kern", "diffmah/diffmahpop_kernels/t_peak_kernels/utp_pdf_kernels.py:_loss_kern", "diffmah/diffmahpop_kernels/t_peak_kernels/tp_pdf_cens_flex.py:loss_multimass"]}
{"id": "C89", "title": "Component fitters return admissible parameters", "statement": "The fitters of the component models return, for whatever the optimisers do, parameters inside the bounds of the model with the loss, termination flag and code of the optimiser used. (For logm0 this is false: its fitters raise AttributeError for every input.)", "quantifier": "every optimiser, loss data and starting point", "why_tests_cant": "all optimiser trajectories", "anchors": ["diffmah/diffmahpop_kernels/t_peak_kernels/utp_pdf_kernels.py:t_peak_fitter", "diffmah/diffmahpop_kernels/t_peak_kernels/tp_pdf_cens.py:t_peak_cens_fitter", "diffmah/diffmahpop_kernels/bimod_logm0_kernels/logm0_c0_early.py:fit_global_c0_model", "diffmah/diffmahpop_kernels/bimod_logm0_kernels/logm0_c1_early.py:fit_global_c1_model"]}
{"id": "C90", "title": "Collating halo samples keeps every halo", "statement": "collate_subvolume_samples puts, for each bin of mass and time, all rows of the samples of all subvolumes into one file, and removes the temporary files only after the files of all bins are complete: wherever it is killed, either all samples are still there or all collated files are complete. Nothing else changes.", "quantifier": "every set of sample files, order of directory listing, grid of bins, other content of the file system, crash point", "why_tests_cant": "all crash points, directory contents and orders", "anchors": ["scripts/diffmahpop_tabulation/smdpl_diffmahpop_utils.py:collate_subvolume_samples"]}
{"id": "C91", "title": "Collating halo samples deletes only what it has collated", "statement": "Every file that collate_subvolume_samples removes is a sample whose rows are in a collated file, and after a crash the collation can be run again.", "quantifier": "every set of files in the directory, grid of bins and crash point", "why_tests_cant": "all directory contents and crash points", "anchors": ["scripts/diffmahpop_tabulation/smdpl_diffmahpop_utils.py:collate_subvolume_samples"]}
{"id": "C92", "title": "The sample tables hold the haloes of every subvolume", "statement": "After smdpl_diffmahpop_subvolume_loop the file of each bin of the grid holds the parameters and peak times of the first 34 centrals (satellites) of that bin of every subvolume, complete and without repetition, and no temporary file is left.", "quantifier": "every sequence of samples produced for each subvolume, range of subvolumes, order of directory listing and initial file system", "why_tests_cant": "all sample contents and directory states", "anchors": ["scripts/diffmahpop_tabulation/smdpl_diffmahpop_utils.py:smdpl_diffmahpop_subvolume_loop", "scripts/diffmahpop_tabulation/smdpl_diffmahpop_utils.py:generate_diffmahpop_targets_for_subvol"]}
{"id": "C93", "title": "Bins of the sample tables keep their identity through file names", "statement": "The mass and time read back from the name of a sample file are those it was written for, to two decimals, and give the same file name again; on the grid of the tables no two bins share a file; the collated file gets the name under which it is looked for; runs with different grids or subvolume ranges write into different directories.", "quantifier": "every non-negative mass and time, both kinds, every grid of at most 300 masses and 1000 times", "why_tests_cant": "all values and grid sizes", "anchors": ["scripts/diffmahpop_tabulation/smdpl_diffmahpop_utils.py:tabulate_target_means_vars", "scripts/diffmahpop_tabulation/smdpl_diffmahpop_utils.py:collate_subvolume_samples", "diffmah/diffmahpop_kernels/load_diffmahpop_fitdata.py:_add_n_sample_column"]}
{"id": "C94", "title": "Fitting a TNG, Bolshoi-Planck or Galacticus catalogue in parallel loses and mixes up nothing", "statement": "When a run of one of these scripts comes to its end, the output file is the table of the fits of all haloes in catalogue order (for Bolshoi-Planck with the id of each halo next to its fit, and the file of target histories complete), no temporary file is left and no other file has changed. With at least two haloes per rank the run can always be completed, with fewer it never is. Wherever it is killed, once the output has been touched either all fits are still in the files of the ranks or the output is complete.", "quantifier": "every fitter, catalogue, number of ranks, interleaving of the ranks, earlier content of the file system and crash point", "why_tests_cant": "interleavings, crash points and catalogue sizes cannot be enumerated", "anchors": ["scripts/fitting_scripts/tng_diffmah_fitter_script.py", "scripts/fitting_scripts/bolshoi_planck_fitting_script.py", "scripts/fitting_scripts/galacticus_diffmah_fitter_script.py"]}
{"id": "C95", "title": "Galacticus haloes are extended to the common final time", "statement": "The time to which haloes are extended is the latest final time of the whole catalogue, whatever the number of ranks. The fitter gets the running peak of the masses, extended with constant mass to that time (with increasing times, as many masses as times, non-decreasing masses), and is told to skip exactly the haloes that lived for less than dt_fit_min.", "quantifier": "every catalogue with finite times and masses, every number of ranks, every dt_fit_min", "why_tests_cant": "all catalogues and rank counts; the maximum is a reduction over ranks", "anchors": ["scripts/fitting_scripts/galacticus_diffmah_fitter_script.py"]}
{"id": "C96", "title": "The Discovery script stops on its first halo list without harm to other files", "statement": "For every list of haloes and every state of the files, each rank of the script for the Discovery simulations empties its own output file and raises AttributeError (it takes the header and the line format from the package fitting_helpers, which does not have them); no other file changes and no fit is written.", "quantifier": "every list of haloes, output name and state of the file system", "why_tests_cant": "the failure must be shown for every input", "anchors": ["scripts/fitting_scripts/hacc_discovery_sims_diffmah_fitter_script.py", "diffmah/fitting_helpers/__init__.py"]}
{"id": "C97", "title": "Command line options and clean-up of the catalogue scripts do what they say", "statement": "-test False should fit the whole catalogue, test mode should work on small catalogues, the output should be there after a successful run whatever its name, and the clean-up should remove only files of the run.", "quantifier": "every text given to the option, every catalogue, output name and number of ranks", "why_tests_cant": "all texts, names and catalogues", "anchors": ["scripts/fitting_scripts/bolshoi_planck_fitting_script.py", "scripts/fitting_scripts/galacticus_diffmah_fitter_script.py", "scripts/fitting_scripts/tng_diffmah_fitter_script.py"]}
{"id": "C98", "title": "Bounded parameters stay in range in single precision", "statement": "In the single-precision arithmetic JAX uses by default, get_bounded_mah_params of any unbounded tuple without NaN, however large or infinite, is finite and inside the closed bounds (with the lower bounds of late_index and t_peak still strict), with late_index <= early_index. The strict bounds and the round trip of exact arithmetic are lost: u_logm0 = 300 maps to logm0 = 17, which maps back to +inf.", "quantifier": "every tuple of single-precision numbers, every platform whose logistic function lies in [0, 1]", "why_tests_cant": "2^160 inputs and rounding at every step", "anchors": ["diffmah/diffmah_kernels.py:get_bounded_mah_params", "diffmah/diffmah_kernels.py:_get_early_late", "diffmah/diffmah_kernels.py:_sigmoid"]}
{"id": "C99", "title": "Freezing at the peak and the mass today are exact in single precision", "statement": "In single precision the mass from t_peak on is bit for bit the mass at t_peak, and before it t_peak has no influence. If lgt0 is what the platform computes for log10(t0), a halo still growing at t0 has exactly log mass logm0 at t0.", "quantifier": "every single-precision parameter tuple, time and present time, every platform", "why_tests_cant": "all bit patterns and platforms", "anchors": ["diffmah/diffmah_kernels.py:logmh_at_t_obs", "diffmah/diffmah_kernels.py:_log_mah_kern"]}
{"id": "C100", "title": "Single-precision histories are accurate", "statement": "For every halo in the parameter box and every time between 0.05 and 20 Gyr the single-precision log mass is within 2^-15 (3.1e-5 dex) of the exact one, if the logistic function and log10 of the platform are accurate to 2^-22. Hence the single-precision history of a valid halo never decreases by more than 2^-14.", "quantifier": "every halo in the box, every time in range, every accurate platform", "why_tests_cant": "worst case over a continuum of inputs and the roundings of about ten operations", "anchors": ["diffmah/diffmah_kernels.py:logmh_at_t_obs", "diffmah/diffmah_kernels.py:_log_mah_noq_kern"]}
{"id": "C101", "title": "The losses' gradients are their derivatives", "statement": "loss_and_grads_mah_moments_multibin of the three population fitters (centrals, satellites, both; bounded or unbounded parameters) returns the loss and a named tuple with the same fields, whose entry for each parameter is the partial derivative of the loss with that random key, all other parameters fixed, through the random draws, the table lookups and the moments, wherever the loss is defined and no clip, maximum or lookup is exactly at its edge.", "quantifier": "all parameters, bins, keys and ages of the Universe without ties; all external rules that differentiate multivariate_normal and truncnorm.cdf correctly", "why_tests_cant": "a test compares a few components with finite differences at a few points; every operation of the pipeline has to be differentiated correctly everywhere", "anchors": ["diffmah/diffmahpop_kernels/bimod_cens_fithelp.py:loss_and_grads_mah_moments_multibin", "diffmah/diffmahpop_kernels/bimod_sats_fithelp.py:loss_and_grads_mah_moments_multibin", "diffmah/diffmahpop_kernels/bimod_censat_fithelp.py"]}
{"id": "C102", "title": "The covariance matrix is differentiated correctly", "statement": "The automatic derivative of every entry of the population's covariance matrix with respect to every parameter is its partial derivative, for all parameters inside their bounds.", "quantifier": "all in-bounds parameters, masses, entries and parameters", "why_tests_cant": "a comparison with zero in the code singles out a set of measure zero that sampling never meets, but initial guesses do", "anchors": ["diffmah/diffmahpop_kernels/covariance_kernels.py:_get_diffmahpop_cov"]}
{"id": "C103", "title": "Three of the unbounded parameters are never used", "statement": "The losses over unbounded parameters (centrals; both) do not depend on u_late_index_x0_alpha, u_late_index_ylo_alpha and u_late_index_yhi_alpha: changing them changes neither value nor exceptions nor random keys used, and their gradient components are zero.", "quantifier": "all unbounded parameters, all changes of the three, all bins and keys", "why_tests_cant": "independence from an input is a statement about all values of it", "anchors": ["diffmah/diffmahpop_kernels/bimod_censat_params.py:get_diffmahpop_params_from_u_params", "diffmah/diffmahpop_kernels/bimod_cens_fithelp.py", "diffmah/diffmahpop_kernels/late_index_bimod.py"]}
{"id": "C104", "title": "A parameter without gradient stays where it started", "statement": "If one component of the gradient is zero wherever the loss is evaluated, every point an Adam fit visits has the starting value in that component, and the Adam wrapper and the fallback optimiser (when it uses Adam) report the starting value or its single-precision copy, for any number of steps and warmup rounds, step sizes and tolerance.", "quantifier": "all losses and starting points, including losses with NaN or infinite values; all settings", "why_tests_cant": "unit tests fit a few smooth losses", "anchors": ["diffmah/fitting_helpers/fit_utils.py:jax_adam_wrapper", "diffmah/fitting_helpers/fit_utils.py:_jax_adam_wrapper", "diffmah/fitting_helpers/bfgs_wrapper.py:bfgs_adam_fallback"]}
{"id": "C105", "title": "An Adam fit cannot run away", "statement": "However large the gradients, one update moves a parameter by at most 7.3 step sizes, and the reported parameters lie within 7.3 times the sum of all step sizes (warmups included) of the start, up to the error of storing them in single precision. They are finite whenever the start is.", "quantifier": "all losses and gradients, all starting points and settings", "why_tests_cant": "needs an invariant over the whole history of gradients", "anchors": ["diffmah/fitting_helpers/fit_utils.py:jax_adam_wrapper", "diffmah/fitting_helpers/fit_utils.py:_jax_adam_wrapper"]}
{"id": "C106", "title": "Halo-to-halo scatter is Gaussian with the advertised moments", "statement": "For a halo with given peak time, the unbounded parameters of the early draw are jointly Gaussian around the unbounded mean parameters with the covariance matrix of the population model at the halo's mass; likewise for the late draw, and the two are independent. Each parameter scatters with its advertised standard deviation (every quantile), and the mean parameters are the medians of logm0, logtc and late_index over haloes.", "quantifier": "all in-bounds population parameters, all halo inputs with valid means, all keys; all random streams with standard normal numbers", "why_tests_cant": "a distribution is a statement about all random streams; tests look at sample moments of one seed", "anchors": ["diffmah/diffmahpop_kernels/mc_bimod_cens.py:mc_diffmah_params_singlecen", "diffmah/diffmahpop_kernels/mc_bimod_sats.py:mc_diffmah_params_singlesat", "diffmah/diffmahpop_kernels/covariance_kernels.py:_get_diffmahpop_cov"]}
{"id": "C107", "title": "A Monte Carlo population is an independent sample of the advertised mixture", "statement": "Each halo is of early type with exactly the early fraction of its mass and time. With given peak times the haloes of a population are mutually independent, and the unbounded parameters of each follow the mixture of the early and the late Gaussian with the early fraction as weight.", "quantifier": "all population sizes and inputs in range, all in-bounds parameters, all keys; all random streams with independent uniform and normal numbers", "why_tests_cant": "independence and laws are statements about all random streams", "anchors": ["diffmah/diffmahpop_kernels/mc_bimod_cens.py:mc_diffmah_cenpop", "diffmah/diffmahpop_kernels/mc_bimod_sats.py:mc_diffmah_satpop", "diffmah/diffmahpop_kernels/mc_bimod_cens.py:mc_diffmah_params_singlecen", "diffmah/diffmahpop_kernels/frac_early_cens.py"]}
{"id": "C108", "title": "Drawn peak times have the advertised distribution", "statement": "The peak time drawn for a central halo follows the fraction of peaked haloes of the model as a function of time: to 8e-6 at every time, exactly at the table nodes (up to the tolerance of jnp.interp), with the remaining probability at the present time and the mass below 5% of the age at 5% of the age. The peak time drawn for a satellite follows the normal distribution with the location and scale of the model conditioned on 0.1 to 1 times the observed time, to 1e-3 at every time. Early and late draw of a halo share that peak time.", "quantifier": "all in-bounds parameters, masses, times and keys; all random streams whose number for the key is uniform", "why_tests_cant": "a sample estimates a distribution at one parameter point; the error of the look-up tables has to be bounded over the whole parameter box", "anchors": ["diffmah/diffmahpop_kernels/t_peak_kernels/tp_pdf_cens_flex.py:mc_tpeak_singlecen", "diffmah/diffmahpop_kernels/t_peak_kernels/tp_pdf_sats.py:mc_tpeak_singlesat", "diffmah/diffmahpop_kernels/mc_bimod_cens.py:mc_diffmah_params_singlecen", "diffmah/diffmahpop_kernels/mc_bimod_sats.py:mc_diffmah_params_singlesat"]}
{"id": "C109", "title": "Predicted moments agree with Monte Carlo populations", "statement": "The differentiable moments that the losses fit (predict_mah_moments_singlebin) and the Monte Carlo populations that users generate (mc_cenpop, mc_satpop) describe the same haloes. At every time, the predicted mean log mass for a mass and observation time has for its expectation the expected log mass of a Monte Carlo halo with that mass and observation time; the predicted second moment has that of its square. The predicted mean scatters with at most 1/200 of the variance of the log mass, the predicted variance is low on average by a factor between 199/200 and 1, and the average over a population of n haloes differs from the predicted mean by 2 eps or more with probability at most Var/eps^2 (1/200 + 1/n).", "quantifier": "centrals and satellites, all in-bounds parameters, masses, times, keys and population sizes; all random streams in which the numbers of all haloes have the same joint law, whatever it is", "why_tests_cant": "a test compares one sample with one prediction and has to allow for Monte Carlo noise; a small bias of the weights, of the type fractions or of the sampled peak times stays below it", "anchors": ["diffmah/diffmahpop_kernels/mc_bimod_cens.py:predict_mah_moments_singlebin", "diffmah/diffmahpop_kernels/mc_bimod_cens.py:mc_cenpop", "diffmah/diffmahpop_kernels/mc_bimod_sats.py:predict_mah_moments_singlebin", "diffmah/diffmahpop_kernels/mc_bimod_sats.py:mc_satpop"]}
{"id": "C110", "title": "Peak times fed back reproduce the population", "statement": "Calling the population generator again with the same key and with the peak times of the population that it returned gives exactly the same population: the same haloes, the same early and late samples, the same early fractions and the same choices between early and late. For one halo, the drawn peak time passed as its peak time gives the same early and late draws, which both have that peak time.", "quantifier": "centrals and satellites, all in-bounds population parameters, all masses and times in range, all keys and random streams, populations of any size", "why_tests_cant": "whether a peak time is drawn or given, two different code paths compute the means; a test compares them for a few haloes only and with a tolerance", "anchors": ["diffmah/diffmahpop_kernels/mc_bimod_cens.py:mc_diffmah_cenpop", "diffmah/diffmahpop_kernels/mc_bimod_cens.py:mc_diffmah_params_singlecen", "diffmah/diffmahpop_kernels/mc_bimod_sats.py:mc_diffmah_satpop", "diffmah/diffmahpop_kernels/mc_bimod_cens.py:_mean_diffmah_params"]}
{"id": "C111", "title": "Peak-time densities integrate to the distribution that is drawn from", "statement": "The density to which the peak-time models are fitted is a probability density: non-negative, zero outside the physical interval (0.1 to 1 in units of the final time), with integral one. The distribution function is its integral. The peak times drawn by the Monte Carlo generators of centrals (tp_pdf_cens) and satellites are distributed with that density: the probability of a peak time up to t differs from the integral of the density up to t nowhere by more than 0.001 plus the tolerance of the table look-up.", "quantifier": "all locations and positive scales for density and distribution function; for the draws all in-bounds parameters, masses, times, final times and keys, and all random streams whose number is uniform", "why_tests_cant": "a histogram of draws shows the density only up to noise and bin width; a test of the integral uses one set of parameters and a quadrature", "anchors": ["diffmah/diffmahpop_kernels/t_peak_kernels/utp_pdf_kernels.py:_tp_pdf_kern", "diffmah/diffmahpop_kernels/t_peak_kernels/utp_pdf_kernels.py:_tp_cdf_kern", "diffmah/diffmahpop_kernels/t_peak_kernels/utp_pdf_kernels.py:mc_tp_pdf_singlesat", "diffmah/diffmahpop_kernels/t_peak_kernels/tp_pdf_cens.py:_t_peak_cen_pdf_singlehalo_kern", "diffmah/diffmahpop_kernels/t_peak_kernels/tp_pdf_cens.py:mc_tpeak_singlecen", "diffmah/diffmahpop_kernels/t_peak_kernels/tp_pdf_sats.py:mc_tpeak_singlesat"]}
{"id": "C112", "title": "Best-fit figures compare each bin with its own prediction", "statement": "The figures that compare a best-fit model with the target tables compare like with like. In the z=0 and z=2 figures each of three nominal masses shows the first bin of that epoch (observed after 13.5 Gyr; between 2.5 and 3.5 Gyr) closest in mass: a band of target mean plus and minus target standard deviation, the target mean, and the predicted mean and mean plus and minus standard deviation for that bin's own mass, time and time table. In the residual figures the panels are for 4, 7, 10 and 13 Gyr and each of fifteen curves, blue to red for masses from 11 to 14.5 (satellites 13.5), is the prediction minus the target of the first bin closest in time and mass; the mean of its squares is at most the loss of that bin, and a bin without loss has a curve of zeros. A figure is made whenever the table has a bin (of the epoch), and otherwise a ValueError is raised and nothing is saved. The six figures never replace each other in a directory.", "quantifier": "every table of targets, all in-bounds population parameters, all random streams, every directory", "why_tests_cant": "which bin a curve shows depends on the whole table; figures are not looked at by tests", "anchors": ["diffmah/diffmahpop_kernels/diagnostics/plot_bestfit_cen_mahs.py:plot_singlepanel_mahs_centrals_z0", "diffmah/diffmahpop_kernels/diagnostics/plot_bestfit_cen_mahs.py:plot_singlepanel_mahs_centrals_z2", "diffmah/diffmahpop_kernels/diagnostics/plot_bestfit_cen_mahs.py:plot_cen_mah_4panel_residuals", "diffmah/diffmahpop_kernels/diagnostics/plot_bestfit_sat_mahs.py:plot_singlepanel_mahs_satellites_z0", "diffmah/diffmahpop_kernels/diagnostics/plot_bestfit_sat_mahs.py:plot_singlepanel_mahs_satellites_z2", "diffmah/diffmahpop_kernels/diagnostics/plot_bestfit_sat_mahs.py:plot_sat_mah_4panel_residuals"]}
{"id": "C113", "title": "Scatter is independent of the drawn peak time", "statement": "If the peak time of a halo is drawn, then its scatter about the mean parameters for that peak time is Gaussian with the covariance of the population model and independent of the peak time, for the early and for the late draw.", "quantifier": "centrals and satellites, all in-bounds population parameters, masses and times in range, all keys; all random streams in which the numbers of a key are uniform and standard normal and those of different keys are independent", "why_tests_cant": "independence is a statement about all random streams; a correlation between peak time and mass that comes from a reused key looks like physics in a sample", "anchors": ["diffmah/diffmahpop_kernels/mc_bimod_cens.py:mc_diffmah_params_singlecen", "diffmah/diffmahpop_kernels/mc_bimod_cens.py:_mean_diffmah_params_early", "diffmah/diffmahpop_kernels/mc_bimod_cens.py:_mean_diffmah_params_late", "diffmah/diffmahpop_kernels/mc_bimod_sats.py:mc_diffmah_params_singlesat"]}
{"id": "C114", "title": "A population with drawn peak times is a random sample", "statement": "The haloes of a population whose peak times are drawn, that is their types together with all five parameters, are mutually independent, and those with the same mass and time of observation are identically distributed. So sample averages converge: the average over a population of n haloes of any quantity between 0 and 1 differs from its expectation by eps or more with probability at most 1/(4 n eps^2), and the fraction of early-type haloes is that close to the average early fraction of the model.", "quantifier": "centrals and satellites, populations of any size and composition in range, all in-bounds parameters, keys, and quantities; all random streams whose numbers are independent between haloes", "why_tests_cant": "independence and convergence are statements about all random streams and sizes", "anchors": ["diffmah/diffmahpop_kernels/mc_bimod_cens.py:mc_diffmah_cenpop", "diffmah/diffmahpop_kernels/mc_bimod_sats.py:mc_diffmah_satpop"]}
{"id": "C115", "title": "Formation times are well defined", "statement": "For every halo inside the bounds whose late index does not exceed its early index, every mass up to its peak mass is reached at exactly one time: the halo is lighter at every earlier time and at least as massive at every later one. Larger masses are reached later, and the time at which a given fraction of the peak mass is reached does not depend on logm0.", "quantifier": "all in-bounds parameters with ordered indices, all masses up to the peak mass, all positive times, every present time of at least 9 Gyr", "why_tests_cant": "existence and uniqueness are statements about all times; a grid can miss a second crossing", "anchors": ["diffmah/diffmah_kernels.py:logmh_at_t_obs", "diffmah/diffmah_kernels.py:_log_mah_kern"]}
{"id": "C116", "title": "Each parameter moves the history one way", "statement": "Raising early_index, late_index or logtc lowers the mass of a halo at every time before today (and afterwards, if it peaked before today). Of two growing haloes with the same mass today, the one with larger early_index, late_index and logtc reaches every smaller mass later.", "quantifier": "all parameters with positive peak time (for logtc: late index below early index; for the comparison of formation times: valid haloes that peak no earlier than today), all positive times", "why_tests_cant": "monotonicity in a parameter ranges over all parameter values and times", "anchors": ["diffmah/diffmah_kernels.py:logmh_at_t_obs", "diffmah/diffmah_kernels.py:_rolling_plaw_vs_logt", "diffmah/diffmah_kernels.py:_power_law_index_vs_logt"]}
{"id": "C117", "title": "A history determines its parameters", "statement": "Two valid haloes with the same mass at all times have the same five parameters, and the same unbounded parameters. Agreement during any period, however short, before either has peaked already determines logm0, logtc, early_index and late_index.", "quantifier": "all valid parameters, all unbounded parameters, all periods of time; every present time of at least 9 Gyr", "why_tests_cant": "no finite set of histories shows that no two parameter sets share one", "anchors": ["diffmah/diffmah_kernels.py:logmh_at_t_obs", "diffmah/diffmah_kernels.py:_log_mah_kern_u_params", "diffmah/diffmah_kernels.py:get_bounded_mah_params"]}
{"id": "C118", "title": "The results file reproduces the fitted histories", "statement": "The history computed from the parameters read back from a result line agrees with the history of the best-fit parameters to 5e-4 dex at every time from 0.05 Gyr on, and the root-mean-square misfit to any target points changes by at most 5e-4 dex.", "quantifier": "all fit results with parameters inside the bounds, all times from 0.05 Gyr on, all target points there, all present times between 9 and 20 Gyr", "why_tests_cant": "the effect of rounding each of five parameters must be bounded for all parameter values and times", "anchors": ["diffmah/fitting_helpers/diffmah_fitter_helpers.py:get_outline", "diffmah/fitting_helpers/diffmah_fitter_helpers.py:_parse_outline", "diffmah/diffmah_kernels.py:logmh_at_t_obs"]}
{"id": "C119", "title": "A history made by the model is fitted exactly by its own parameters", "statement": "If the fitter is given the mass history of a valid halo on a grid of times that ends today, then the peak time it infers is the first grid time that is not before the true peak (the last one for a halo that is still growing). If the true peak is on the grid or not before its end, or is supplied, then the loss that the optimisers minimise is zero at the true parameters and non-negative everywhere, and parameters with zero loss reproduce the input history at every target time.", "quantifier": "all valid parameters, all increasing grids of times that end between 9 and 20 Gyr, all cuts, all optimisers; single-precision conversion that is exact on the times and keeps different input masses apart", "why_tests_cant": "the input ranges over all model histories and grids, and the minimum over all parameters", "anchors": ["diffmah/fitting_helpers/diffmah_fitter_helpers.py:diffmah_fitter", "diffmah/fitting_helpers/diffmah_fitter_helpers.py:get_loss_data", "diffmah/fitting_helpers/diffmah_fitter_helpers.py:log_mah_loss_uparams", "diffmah/fitting_helpers/diffmah_fitter_helpers.py:compute_indx_t_peak_singlehalo"]}
{"id": "C120", "title": "All component fits follow the true gradient of their loss", "statement": "The gradients that accompany the remaining losses of the component models are exact: for the peak-time models of satellites and centrals each component is the derivative of the loss with respect to that unbounded parameter, at every parameter and for data anywhere inside, outside or on the edge of the physical interval; for the mass coefficients (early, late, centrals, satellites) it is the derivative with respect to that parameter unless a prediction sits exactly on its floor; for the fraction of peaked centrals at one mass always, and for many masses unless a target is predicted exactly. Where all targets of all masses are predicted exactly the gradient is zero, so that an optimiser stays there.", "quantifier": "every parameter vector, every non-empty data set, every final time other than zero, every copy of the component", "why_tests_cant": "finite differences sample a few points; the density is cut off at the edges of its interval and the losses have kinks", "anchors": ["diffmah/diffmahpop_kernels/t_peak_kernels/utp_pdf_kernels.py:loss_and_grads_kern", "diffmah/diffmahpop_kernels/t_peak_kernels/tp_pdf_cens.py:loss_and_grads_kern", "diffmah/diffmahpop_kernels/t_peak_kernels/tp_pdf_cens_flex.py:loss_and_grad_multimass", "diffmah/diffmahpop_kernels/t_peak_kernels/tp_pdf_cens_flex.py:loss_and_grad", "diffmah/diffmahpop_kernels/bimod_logm0_kernels/logm0_c0_early.py:global_loss_and_grads_kern", "diffmah/diffmahpop_kernels/bimod_logm0_kernels/logm0_c1_early.py:global_loss_and_grads_kern"]}
{"id": "C121", "title": "Bounded population parameters stay in range in single precision", "statement": "In single precision, the bounding transform of every population module maps every unbounded parameter set without NaN, however large or infinite, to finite parameters with the module's names, each between the single-precision values of its bounds.", "quantifier": "every module, every tuple of single-precision numbers without NaN, every platform whose logistic function lies in [0, 1]", "why_tests_cant": "2^32 values per parameter and about 120 parameters; the rounding of each pair of bounds matters", "anchors": ["diffmah/diffmahpop_kernels/logtc_early.py:get_bounded_logtc_params", "diffmah/diffmahpop_kernels/covariance_kernels.py:get_bounded_cov_params", "diffmah/diffmahpop_kernels/bimod_logm0_kernels/logm0_c0_early.py:get_bounded_c0_params", "diffmah/diffmahpop_kernels/bimod_logm0_kernels/logm0_c1_early.py:get_bounded_c1_params", "diffmah/diffmahpop_kernels/t_peak_kernels/tp_pdf_cens_flex.py"]}
{"id": "C122", "title": "Accretion rates are accurate and never negative in single precision", "statement": "In single precision, the accretion rates that mah_singlehalo returns for a valid halo at times from 0.05 to 20 Gyr are finite, never negative, exactly zero after t_peak, and within 1% of the exact rates (0.25% up to the present day), up to the smallest positive single-precision number.", "quantifier": "every valid halo, every time array between 0.05 and 20 Gyr, every present time of at least 9 Gyr, every platform of stated accuracy", "why_tests_cant": "the derivative is a sum of rounded terms that nearly cancel for some halos; tests compare a few halos at loose tolerance", "anchors": ["diffmah/diffmah_kernels.py:mah_singlehalo", "diffmah/diffmah_kernels.py:_dmhdt_noq_grad_kern_scalar", "diffmah/diffmah_kernels.py:_dmhdt_kern_scalar"]}
{"id": "C123", "title": "Losses of the fit are reliable in single precision", "statement": "In single precision, every point that an optimiser tries, however large or infinite its numbers, is a halo with accurate log masses (to 2^-15 dex) and finite, non-negative accretion rates, and has a finite, non-negative loss, in whatever order the squares are added up. A small loss is a close fit: the exact history of the bounded parameters passes each of the n target points within the root of n times the reported loss, up to 0.1% and 2^-14 dex. Conversely, if all residuals are at most 2^k - 2^-14 dex then the reported loss is at most 2^(2k), for k from -13 to 41.", "quantifier": "every tuple of single-precision numbers without NaN, every target history of 1 to 2^24 points between 0.05 and 20 Gyr, every order of summation, every platform of stated accuracy", "why_tests_cant": "2^160 inputs, arbitrary arrays, and an order of summation that the compiler chooses", "anchors": ["diffmah/fitting_helpers/diffmah_fitter_helpers.py:log_mah_loss_uparams", "diffmah/fitting_helpers/diffmah_fitter_helpers.py:_mse", "diffmah/diffmah_kernels.py:_log_mah_kern_u_params", "diffmah/diffmah_kernels.py:get_bounded_mah_params"]}
{"id": "C124", "title": "Gradients of the fit stay finite in single precision", "statement": "The gradient of the loss that value_and_grad computes is finite in single precision at every point without NaN, however large or infinite its numbers, in whatever order sums are added up. If the target is the history that the library computes in single precision from the point itself, loss and gradient are exactly zero. On platforms whose logistic function saturates the gradient is also exactly zero wherever all four numbers exceed 220, whatever the loss, so that a fit that gets there is stuck.", "quantifier": "every tuple of single-precision numbers without NaN, every target history of 1 to 2^24 points between 0.05 and 20 Gyr, every order of summation, every platform of stated accuracy", "why_tests_cant": "2^160 inputs, arbitrary arrays, and an order of summation that the compiler chooses; one infinite intermediate result makes the fit NaN for good", "anchors": ["diffmah/fitting_helpers/diffmah_fitter_helpers.py:loss_and_grads_kern", "diffmah/fitting_helpers/diffmah_fitter_helpers.py:log_mah_loss_uparams", "diffmah/diffmah_kernels.py:_log_mah_kern_u_params", "diffmah/diffmah_kernels.py:get_bounded_mah_params"]}
{"id": "C125", "title": "Fits with Adam cannot break down in single precision", "statement": "The Adam fallback of a mass-history fit, with every operation of loss, gradient and update rounded to single precision, never meets a NaN or an infinity: from every finite starting point (up to 2^60) and for every number of steps and warm-up rounds (up to 2^24 in all) it returns four finite parameters and the loss of exactly these parameters, which is not above the loss at the start, and flags the fit as terminated unless the loss is exactly zero. No update moves a parameter by more than 601 step sizes, up to the spacing of the numbers. A start with zero gradient is returned unchanged: a start that fits exactly is returned with loss zero but flagged, by default, as not terminated; a start with all four numbers at 220 or more is returned whatever the target.", "quantifier": "every finite starting point up to 2^60, every target history of 1 to 2^24 points, every number of steps and warm-up rounds up to 2^24 in all, every outcome of L-BFGS, every platform of stated accuracy", "why_tests_cant": "a run is hundreds of rounded updates of a nonlinear state; overflow of the squared gradient needs inputs that no test tries", "anchors": ["diffmah/fitting_helpers/fit_utils.py:jax_adam_wrapper", "diffmah/fitting_helpers/fit_utils.py:_jax_adam_wrapper", "diffmah/fitting_helpers/bfgs_wrapper.py:bfgs_adam_fallback", "diffmah/fitting_helpers/diffmah_fitter_helpers.py:loss_and_grads_kern"]}
{"id": "C126", "title": "Parameters survive the way through the unbounded space and back in single precision", "statement": "In single precision, unbounding the parameters of a halo within the bounds (including on them, and with equal indices) and bounding them again gives back logm0, early_index and t_peak to 2^-15, late_index to 2^-17 and logtc to 2^-18. For every module of the population model, unbounding and bounding any parameter set between the rounded bounds succeeds and moves no parameter by more than 2^-19 of the width of its range plus 2^-23 of its lower bound.", "quantifier": "every halo and every population parameter set within the bounds, every platform whose logistic function and logarithm are accurate to 2^-22", "why_tests_cant": "all single-precision numbers between the bounds, including those whose unbounded counterpart is infinite; all conforming platforms", "anchors": ["diffmah/diffmah_kernels.py:get_unbounded_mah_params", "diffmah/diffmah_kernels.py:get_bounded_mah_params", "diffmah/diffmah_kernels.py:_inverse_sigmoid", "diffmah/utils.py:_inverse_sigmoid"]}
{"id": "C127", "title": "Population predictions and Monte Carlo haloes are accurate and valid in single precision", "statement": "In single precision the mean parameters of early and late haloes and the early fraction are those of exact arithmetic to 2^-14, for all masses and times in [0,20]; for log-masses 4.5 to 13.4 and times up to 15 Gyr they are valid halo parameters and the early fraction is between 0.249 and 0.751. Whatever noise other than NaN is then added to their unbounded counterparts, the generated halo is within the bounds with late_index <= early_index, has the requested peak time to 2^-15, and its mass history is finite and exact to 2^-15 dex. Any unbounded population parameters without NaN, even infinite ones, lead to parameters for which all this holds.", "quantifier": "all population parameters within the bounds (or outside by rounding), centrals and satellites, all masses, times and peak times in the stated ranges, all noise vectors, all platforms whose logistic function and logarithms are accurate to 2^-22", "why_tests_cant": "accuracy is a statement about all binary32 inputs and about conforming platforms that the tests do not run on; noise is unbounded", "anchors": ["diffmah/diffmahpop_kernels/mc_bimod_cens.py:_mean_diffmah_params_t_peak", "diffmah/diffmahpop_kernels/mc_bimod_cens.py:mc_diffmah_params_singlecen", "diffmah/diffmahpop_kernels/mc_bimod_sats.py:_mean_diffmah_params_t_peak", "diffmah/diffmahpop_kernels/bimod_censat_params.py:get_component_model_params", "diffmah/diffmahpop_kernels/bimod_censat_params.py:get_diffmahpop_params_from_u_params"]}
{"id": "C128", "title": "The scatter of Monte Carlo haloes cannot break down in single precision", "statement": "In single precision the covariance matrix of the halo-to-halo scatter is computed without infinity or NaN for every mass from 1 to 10^20 and every parameter set within the bounds: each standard deviation is the logistic step of its three parameters to 2^-10 and at least 1/128, each entry is correlation times standard deviations to a relative 2^-22, and its Cholesky factor is finite with a positive diagonal and reproduces the matrix to 2^-19 of the product of the standard deviations. So a Monte Carlo halo with given peak time is generated without NaN for all normal numbers: both its early and its late parameters are within the bounds with late_index <= early_index, with the requested peak time to 2^-15.", "quantifier": "all population parameters within the bounds (up to rounding), all masses and times in range, all keys, all normal numbers up to 2^64, every platform of the stated accuracy", "why_tests_cant": "the factorisation returns NaN for a matrix that rounding has made indefinite; no sample of parameters excludes that", "anchors": ["diffmah/diffmahpop_kernels/covariance_kernels.py:_get_diffmahpop_cov", "diffmah/diffmahpop_kernels/covariance_kernels.py:_get_cov_params", "diffmah/diffmahpop_kernels/mc_bimod_cens.py:mc_diffmah_params_singlecen", "diffmah/diffmahpop_kernels/mc_bimod_sats.py:mc_diffmah_params_singlesat", "diffmah/utils.py:covariance_from_correlation"]}
{"id": "C129", "title": "Peak times drawn in single precision are finite and physical", "statement": "In single precision a peak time is drawn without exception, infinity or NaN for every parameter set within the bounds, every mass from 1 to 10^20 and every time of observation from 0.001 to 20 Gyr, whatever the uniform number: that of a central lies between 0.0499 and 1.0001 times the age of the universe, that of a satellite strictly between a tenth of the time of observation and that time. So a whole Monte Carlo halo with a drawn peak time is finite and within the bounds, with late_index <= early_index, and its early and late variants share the drawn peak time to 2^-15.", "quantifier": "all population parameters within the bounds (up to rounding), all masses, times and ages in range, all keys, uniform and normal numbers, every table and distribution function of the stated accuracy, every platform of the stated accuracy", "why_tests_cant": "rounding can make the interpolated table of probabilities non-monotone or its steps vanish; a sample of seeds does not meet every step", "anchors": ["diffmah/diffmahpop_kernels/t_peak_kernels/tp_pdf_cens_flex.py:mc_tpeak_singlecen", "diffmah/diffmahpop_kernels/t_peak_kernels/tp_pdf_sats.py:mc_tpeak_singlesat", "diffmah/diffmahpop_kernels/t_peak_kernels/utp_pdf_kernels.py:mc_tp_pdf_singlesat", "diffmah/diffmahpop_kernels/mc_bimod_cens.py:mc_diffmah_params_singlecen", "diffmah/diffmahpop_kernels/mc_bimod_sats.py:mc_diffmah_params_singlesat"]}
{"id": "C130", "title": "Moments and losses of populations are accurate and finite in single precision", "statement": "In single precision the predicted mean and scatter of the log masses of a simulated population are finite, whatever the order of the sums: at each time the mean is within 2^-10 dex, and the scatter within 2^-9 dex, of the exact moments of the two hundred haloes drawn, and the square root never meets a negative variance. So the loss of a population fit, of centrals alone or of centrals and satellites, is computed without exception and is a finite number that is not negative, for all unbounded parameters without NaN, however large.", "quantifier": "all population parameters within the bounds (up to rounding), all unbounded parameters without NaN, all masses, times and ages in range, all non-empty sets of mass bins, all keys, uniform and normal numbers, all orders and bracketings of every sum, every platform of the stated accuracy", "why_tests_cant": "cancellation in the variance depends on the values and on the order XLA chooses for a sum; a NaN at one step of a fit ruins it, and tests see only a few steps", "anchors": ["diffmah/diffmahpop_kernels/mc_bimod_cens.py:predict_mah_moments_singlebin", "diffmah/diffmahpop_kernels/mc_bimod_sats.py:predict_mah_moments_singlebin", "diffmah/diffmahpop_kernels/bimod_cens_fithelp.py:loss_mah_moments_multibin", "diffmah/diffmahpop_kernels/bimod_censat_fithelp.py:loss_mah_moments_multibin_censat"]}
{"id": "C131", "title": "Monte Carlo catalogues are valid and accurate in single precision", "statement": "In single precision a simulated catalogue of centrals or satellites has one row for each requested halo, without exception: each halo is the early or the late one of the pair drawn for it, as its own uniform number says; its parameters are finite, within the bounds, and the late index does not exceed the early one; at every time its log mass is within 2^-15 dex of the exact history of those parameters, and its accretion rate is not negative and within 1% of the exact one (0.25% up to today). When peak times are given instead of drawn, each halo's peak is within 2^-15 Gyr of the given one.", "quantifier": "all population parameters within the bounds (up to rounding), all lists of masses and observation times in range, all arrays of times between 0.05 and 20 Gyr, all keys, uniform and normal numbers, every platform of the stated accuracy", "why_tests_cant": "a catalogue has millions of haloes, and one NaN or negative rate is enough to spoil a statistic; tests see one seed", "anchors": ["diffmah/diffmahpop_kernels/mc_bimod_cens.py:mc_cenpop", "diffmah/diffmahpop_kernels/mc_bimod_cens.py:mc_diffmah_cenpop", "diffmah/diffmahpop_kernels/mc_bimod_sats.py:mc_satpop", "diffmah/diffmahpop_kernels/mc_bimod_sats.py:mc_diffmah_satpop", "diffmah/diffmah_kernels.py:mah_singlehalo"]}
{"id": "C132", "title": "Histories and rates are differentiated correctly in every argument", "statement": "Differentiating the history of a halo gives the true derivatives: for any direction of change of the five parameters, of the times and of the present day, the derivatives of the log mass and of the accretion rate at every positive time other than the peak are those of the returned values; at the peak itself too, if the time does not move relative to the peak. The same holds through the unbounded parameters. The gradient of the log mass has the closed form of the rolling power law, frozen after the peak, and after the peak the accretion rate has no gradient.", "quantifier": "all parameters with a positive peak time, all unbounded parameters, all directions, all arrays of positive times, all present days", "why_tests_cant": "a gradient is a statement about all nearby inputs; where, nested derivatives and the freeze at the peak are the usual sources of silently wrong gradients", "anchors": ["diffmah/diffmah_kernels.py:mah_singlehalo", "diffmah/diffmah_kernels.py:_diffmah_kern_u_params", "diffmah/diffmah_kernels.py:_dmhdt_noq_kern_scalar", "diffmah/diffmah_kernels.py:_log_mah_kern"]}
{"id": "C133", "title": "Histories and fits do not depend on the units", "statement": "Giving the masses and times of a halo in other units gives the same history in the new units: adding d to the log mass, scaling all times by a factor and shifting logtc and the log of the present day by its logarithm, mah_singlehalo returns the same log masses shifted by d and the same rates converted to the new units. The loss of a fit is the same number in both units. With the default mass floor, a simulated history whose masses are all multiplied by a positive factor is fitted at the same times to the same history in the new units, is skipped in the same cases, and in exact arithmetic has the same peak time.", "quantifier": "all parameters with positive peak time, all arrays of positive times, all unit changes, all simulated histories of positive masses, all optimizers", "why_tests_cant": "covariance is a statement about pairs of runs over a continuum of inputs", "anchors": ["diffmah/diffmah_kernels.py:mah_singlehalo", "diffmah/fitting_helpers/diffmah_fitter_helpers.py:diffmah_fitter", "diffmah/fitting_helpers/diffmah_fitter_helpers.py:log_mah_loss_uparams", "diffmah/fitting_helpers/diffmah_fitter_helpers.py:_get_target_data"]}
{"id": "C134", "title": "Every population parameter sets the limit its name says", "statement": "In each ingredient of the population model the parameters called ylo and yhi are the limits for low and high masses, those called early and late the limits at early and late times, and those called x0 or t0 the place where the transition is half-way; parameters called ytp are the value at the pivot time, and ylo and yhi next to them the slopes before and after. Early and late population, and centrals and satellites, each use the parameters with their own suffix. This covers the fraction of early-forming centrals, the peak times of centrals (both versions) and satellites, early and late index, transition time, final mass, the fraction of centrals that peak today, and the scatter.", "quantifier": "all parameter values, all masses and times (limits in both directions)", "why_tests_cant": "a swapped pair of parameters still gives smooth, bounded, plausible populations at the default values; limits are not reached at any finite input", "anchors": ["diffmah/diffmahpop_kernels/frac_early_cens.py:_frac_early_cens_kern", "diffmah/diffmahpop_kernels/t_peak_kernels/tp_pdf_cens_flex.py:_frac_peaked_vs_lgm", "diffmah/diffmahpop_kernels/t_peak_kernels/tp_pdf_sats.py:_get_utp_loc", "diffmah/diffmahpop_kernels/t_peak_kernels/tp_pdf_cens.py:_get_truncnorm_scale", "diffmah/diffmahpop_kernels/early_index_bimod.py:_pred_early_index_early", "diffmah/diffmahpop_kernels/late_index_bimod.py:_pred_late_index_early", "diffmah/diffmahpop_kernels/logtc_early.py:_pred_logtc_kern", "diffmah/diffmahpop_kernels/logtc_late.py:_pred_logtc_kern", "diffmah/diffmahpop_kernels/bimod_logm0_kernels/logm0_pop_bimod.py:_pred_logm0_kern_early", "diffmah/diffmahpop_kernels/bimod_logm0_sats/logm0_pop_bimod_sats.py:_pred_logm0_kern_late", "diffmah/diffmahpop_kernels/ftpt0_cens.py:_ftpt0_kernel", "diffmah/diffmahpop_kernels/covariance_kernels.py:_get_cov_params"]}
{"id": "C135", "title": "The loss of a fit bounds its error at every time", "statement": "If the fitter returns valid parameters and loss L, and n simulated points passed the cuts, then at each of those points the history of the returned parameters is within sqrt(n L) dex of the running peak of the simulated log-mass, and at any time between two of them it lies between their running peaks, up to the same error. The same holds of the loss function at any parameters, and some target time has an error of at least sqrt(L).", "quantifier": "all histories, cuts, optimisers whose reported loss belongs to the reported point, parameters, and all times between target times", "why_tests_cant": "the claim is about every time between the target points, for every history", "anchors": ["diffmah/fitting_helpers/diffmah_fitter_helpers.py:diffmah_fitter", "diffmah/fitting_helpers/diffmah_fitter_helpers.py:log_mah_loss_uparams", "diffmah/diffmah_kernels.py:_log_mah_kern"]}
{"id": "C136", "title": "The two indices of a halo are the slopes of its history", "statement": "Before it peaks, the history of a halo differs from the power law with exponent early_index through its mass today by an amount that falls off exponentially in log time before logtc, and likewise from the power law with exponent late_index after logtc; at 10**logtc the exponent is half-way. As the time goes to zero the mass approaches the early power law and the logarithmic slope from the accretion rate approaches early_index; the mass starts from zero, and the accretion rate from zero or from infinity as early_index is above or below one. The accretion rate today is the mass over the age of the universe times the index reached today.", "quantifier": "all parameters, times and present times; limits in time", "why_tests_cant": "limits in time are not reached at any finite input, and a wrong transition is invisible at a few chosen times", "anchors": ["diffmah/diffmah_kernels.py:_rolling_plaw_vs_logt", "diffmah/diffmah_kernels.py:_power_law_index_vs_logt", "diffmah/diffmah_kernels.py:logmh_at_t_obs", "diffmah/diffmah_kernels.py:_dmhdt_kern_scalar"]}
{"id": "C137", "title": "Errors in the simulated masses change a fit no more than their size", "statement": "If two simulated histories on the same times differ by at most d dex at each time, and the same times pass the cuts, then the target histories differ by at most d at each target time. If moreover both fits run with the same peak time, then at any parameters the root of the loss differs by at most d.", "quantifier": "all pairs of histories, all cuts, all parameters", "why_tests_cant": "a claim about all pairs of histories", "anchors": ["diffmah/fitting_helpers/diffmah_fitter_helpers.py:get_loss_data", "diffmah/fitting_helpers/diffmah_fitter_helpers.py:_get_target_data", "diffmah/fitting_helpers/diffmah_fitter_helpers.py:log_mah_loss_uparams"]}
{"id": "C138", "title": "Predicted mean histories and drawn histories never decrease", "statement": "For every random stream, all in-bounds population parameters and observed masses and times in range, with the age of the Universe at least 9: the mean log mass predicted for a bin never decreases from an earlier to a later requested time, the mean and standard deviation are the same at all times from 20 on, and at increasing times every history drawn by mc_cenpop or mc_satpop never decreases and has no negative accretion rate.", "quantifier": "all random streams, all in-bounds population parameters, all masses and observation times in range, all lists of times, populations of any size", "why_tests_cant": "a claim about all random draws and all parameters", "anchors": ["diffmah/diffmahpop_kernels/mc_bimod_cens.py:predict_mah_moments_singlebin", "diffmah/diffmahpop_kernels/mc_bimod_cens.py:mc_cenpop", "diffmah/diffmahpop_kernels/mc_bimod_sats.py:mc_satpop", "diffmah/diffmah_kernels.py:mah_singlehalo"]}
{"id": "C139", "title": "Six times determine the parameters of a halo and the solution of its fit", "statement": "Two haloes with different early and late index whose masses agree at six different times before either has peaked have the same logm0, logtc, early_index and late_index. So when at least six times of a history made by the model are inside the cuts and before the peak, the loss of its fit vanishes at one point only, and the loss diffmah_fitter reports is zero exactly when the parameters it reports are those of the halo.", "quantifier": "all pairs of haloes, all sets of six or more times, all model histories, cuts and optimisers", "why_tests_cant": "a uniqueness claim over all parameters and all choices of times", "anchors": ["diffmah/diffmah_kernels.py:logmh_at_t_obs", "diffmah/fitting_helpers/diffmah_fitter_helpers.py:diffmah_fitter", "diffmah/fitting_helpers/diffmah_fitter_helpers.py:log_mah_loss_uparams"]}
{"id": "C140", "title": "The least number of points a fit asks for is the right one", "statement": "Two haloes with different early and late index that have not peaked before today, and whose masses agree today and at three other times before either has peaked, have the same logm0, logtc, early_index and late_index. Two other times are not enough: every valid halo has another valid halo with the same logm0, t_peak and masses at both times but a different logtc. So NPTS_FIT_MIN = 3 points besides today is the least bound that makes a fit well posed: for every history made by the model that has not peaked before its last time, each fit that is not skipped has exactly one point of zero loss, and the loss diffmah_fitter reports is zero exactly when it reports the parameters of the halo.", "quantifier": "all pairs of haloes, all choices of times, all model histories that rise to the end, all cuts and optimisers", "why_tests_cant": "a uniqueness claim over all parameters, and the existence of a counterexample for every halo and every two times", "anchors": ["diffmah/fitting_helpers/diffmah_fitter_helpers.py:NPTS_FIT_MIN", "diffmah/fitting_helpers/diffmah_fitter_helpers.py:get_loss_data", "diffmah/fitting_helpers/diffmah_fitter_helpers.py:diffmah_fitter", "diffmah/diffmah_kernels.py:logmh_at_t_obs"]}
{"id": "C141", "title": "Fits with small errors recover the parameters", "statement": "For every valid halo that has not peaked before today, and any three or more earlier times, there is one constant C such that every valid halo whose log-masses today and at those times are within e of its own has logm0, logtc and both indices within C e of its own. So if masses simulated on any increasing times that include those have errors of at most d dex, and diffmah_fitter, with any optimisers and any cuts that keep those times, returns valid parameters with a peak time not before today and the loss x, then the parameters are within C (sqrt(n x) + d) of the true ones, for n simulated times.", "quantifier": "all valid haloes, all choices of times, all neighbouring haloes, all simulated masses, cuts and optimisers", "why_tests_cant": "a bound with one constant for all parameters in the box and all noisy histories", "anchors": ["diffmah/diffmah_kernels.py:logmh_at_t_obs", "diffmah/fitting_helpers/diffmah_fitter_helpers.py:diffmah_fitter", "diffmah/fitting_helpers/diffmah_fitter_helpers.py:log_mah_loss_uparams", "diffmah/fitting_helpers/diffmah_fitter_helpers.py:get_loss_data"]}
{"id": "C142", "title": "Accretion rates summed with the steps of get_dt_array give the history", "statement": "For any halo, any range of times and any tolerance there is a step size such that, on every increasing time array in the range with smaller steps, the cumulative sum of the accretion rates that mah_singlehalo returns times the steps that get_dt_array returns is within the tolerance of the growth of the mass since the first time, at all times of the array at once, also across t_peak where the rate jumps to zero. On equally spaced times the sums tend to the growth of the mass.", "quantifier": "all parameters, all ranges of positive times, all time arrays with small enough steps, all tolerances", "why_tests_cant": "a limit over all time arrays", "anchors": ["diffmah/utils.py:get_dt_array", "diffmah/diffmah_kernels.py:mah_singlehalo"]}
{"id": "C143", "title": "The predictions of the population model determine its parameters", "statement": "Two sets of parameters that predict the same fraction of early-forming haloes over any range of masses and times of observation, however small, have the same limits, and the same half-way mass and half-way time unless the limits on both sides are equal. The same holds of the fraction of centrals that have peaked by one given time, of the location and scale of satellite peak times, and, where the predictions are off the limits to which they are clipped, of the mean early index, late index and transition time and of the fraction of centrals that peak today, and of the covariance matrix, which for parameters inside the bounds determines the correlations and the limits of each scatter. The mean final mass determines the parameters of its dependence on the time of observation where it does not depend on the peak time, and the reverse. The exception is real: by default both limits of the late index are 0.19, and then its half-way mass changes no prediction.", "quantifier": "all pairs of parameter sets, all ranges of masses and times, however small", "why_tests_cant": "a uniqueness claim over all parameters; at finitely many inputs other parameters can give the same values", "anchors": ["diffmah/diffmahpop_kernels/frac_early_cens.py:_frac_early_cens_kern", "diffmah/diffmahpop_kernels/t_peak_kernels/tp_pdf_cens_flex.py:_frac_peaked_vs_lgm", "diffmah/diffmahpop_kernels/t_peak_kernels/tp_pdf_sats.py:_get_utp_loc", "diffmah/diffmahpop_kernels/t_peak_kernels/tp_pdf_sats.py:_get_utp_scale", "diffmah/diffmahpop_kernels/early_index_bimod.py:_pred_early_index_early", "diffmah/diffmahpop_kernels/late_index_bimod.py:_pred_late_index_early", "diffmah/diffmahpop_kernels/logtc_early.py:_pred_logtc_kern", "diffmah/diffmahpop_kernels/logtc_late.py:_pred_logtc_kern", "diffmah/diffmahpop_kernels/covariance_kernels.py:_get_diffmahpop_cov", "diffmah/diffmahpop_kernels/ftpt0_cens.py:_ftpt0_kernel", "diffmah/diffmahpop_kernels/bimod_logm0_kernels/logm0_pop_early.py:_pred_logm0_kern"]}
{"id": "C144", "title": "The logarithmic slope of a halo is bounded by the indices, and exceeds the early index at early times", "statement": "For late_index <= early_index, at every time until the peak and until today the logarithmic slope t (dM/dt) / M, formed from the accretion rate and the mass that the code returns, is at least late_index and at most early_index + 7/8 (early_index - late_index) log10(t0/t). early_index is not the largest slope: at every time before the transition that is earlier than today by more than a factor 10**(4/7) the slope is larger than early_index, and there is exactly one time before today such that the slope is larger than early_index before it and smaller after it. Between any two such times the mass grows at least by the power law with exponent late_index, at most by the one with the upper bound at the later time as exponent, and at least doubles whenever the time grows by the factor 2**(1/late_index). A halo that has not peaked reaches a fraction f of its mass today between the times t0 f**(1/late_index) and t0 f**(1/early_index).", "quantifier": "all parameters with late_index below early_index, all ages of the universe and all times until the peak", "why_tests_cant": "The bounds and the single crossing concern a continuum of times and parameters; a test samples some of them, and the excess over early_index is easily missed.", "anchors": ["diffmah/diffmah_kernels.py:_dmhdt_kern_scalar", "diffmah/diffmah_kernels.py:_rolling_plaw_vs_logt", "diffmah/diffmah_kernels.py:_power_law_index_vs_logt"]}
{"id": "C145", "title": "Snapshots outside the cuts do not change a fit", "statement": "With the default lgm_min, snapshots that are too early (before t_fit_min) or too light (more than dlogm_cut below the final mass) have no influence: with a supplied peak time, two tables with the same last time and last mass that leave the same snapshots after the cuts give exactly the same result of diffmah_fitter, and with an inferred peak time such snapshots can be put before the others without any change of the result, provided that single precision can tell their masses from the last mass. The proviso is needed: a first snapshot with the mass of the last one becomes the inferred peak time although it is excluded from the fit.", "quantifier": "all tables of positive masses, all cuts dlogm_cut and t_fit_min, all excluded snapshots, all optimisers, all supplied peak times and all conversions to single precision", "why_tests_cant": "Independence of data is a statement about pairs of arbitrary tables and about every optimiser; a test compares a few.", "anchors": ["diffmah/fitting_helpers/diffmah_fitter_helpers.py:diffmah_fitter", "diffmah/fitting_helpers/diffmah_fitter_helpers.py:get_loss_data", "diffmah/fitting_helpers/diffmah_fitter_helpers.py:_get_target_data", "diffmah/fitting_helpers/diffmah_fitter_helpers.py:compute_indx_t_peak_singlehalo"]}
{"id": "C146", "title": "Trimmed moments are robust against outliers", "statement": "If at most p_trim (n - 1) of the n values are outliers on the low side, and at most as many on the high side, then trimmed_mean and trimmed_mean_and_variance do not depend on how small or how large the outliers are: replacing them by any other values beyond the rest of the data, in any order, leaves both moments exactly the same. The trimmed mean always lies between the smallest and the largest value of the rest.", "quantifier": "all samples, all numbers of outliers up to p_trim (n - 1) on either side, all values of the outliers and all p_trim up to 1/2", "why_tests_cant": "The outliers take any value, and the number of values and of outliers is unbounded.", "anchors": ["diffmah/utils.py:trimmed_mean", "diffmah/utils.py:trimmed_mean_and_variance"]}
{"id": "C147", "title": "The best mass of a fit has residuals that average to zero", "statement": "At every point where the gradient of the fit vanishes, the residuals (predicted minus target log masses) average to zero; the mass component of the gradient vanishes exactly then. If they average to zero, logm0 is the best one for the other parameters: any other logm0 has a loss larger by the square of its difference. If logm0 minus the mean residual lies between 0 and 17, exactly one unbounded value gives it, no other value has a smaller loss, and the loss drops by the square of the mean residual.", "quantifier": "all unbounded parameters, all non-empty target histories at non-zero times, and all competing values of the mass", "why_tests_cant": "The minimum is over a continuum of masses, and the target histories have any length and any values.", "anchors": ["diffmah/fitting_helpers/diffmah_fitter_helpers.py:loss_and_grads_kern", "diffmah/fitting_helpers/diffmah_fitter_helpers.py:log_mah_loss_uparams", "diffmah/fitting_helpers/diffmah_fitter_helpers.py:_mse", "diffmah/diffmah_kernels.py:get_bounded_mah_params", "diffmah/diffmah_kernels.py:logmh_at_t_obs"]}
{"id": "C148", "title": "A stationary point of a fit is the best halo with its transition time", "statement": "If the components of the gradient for the mass and the two indices vanish at the fitted parameters, then no halo with the same transition time (and the same fixed peak time) has a smaller loss, anywhere in parameter space: its loss is larger by exactly the mean squared difference between its predictions and the fitted ones, and a halo that is as good predicts the same masses at all target times. If the target includes today and two earlier times, and the halo has not peaked before today, it is the only best one. So a fit can be stuck in a wrong minimum only because of the transition time.", "quantifier": "all unbounded parameters at which these components of the gradient vanish, all competing parameters with the same transition time, and all non-empty target histories at non-zero times", "why_tests_cant": "The minimum is global over a three-dimensional continuum, and the target histories have any length and any values.", "anchors": ["diffmah/fitting_helpers/diffmah_fitter_helpers.py:loss_and_grads_kern", "diffmah/fitting_helpers/diffmah_fitter_helpers.py:log_mah_loss_uparams", "diffmah/fitting_helpers/diffmah_fitter_helpers.py:_mse", "diffmah/diffmah_kernels.py:get_bounded_mah_params", "diffmah/diffmah_kernels.py:logmh_at_t_obs"]}
