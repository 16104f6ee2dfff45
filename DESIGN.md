# Formal model of diffmah: design

Source modelled: `/repo` (ArgonneCPAC/diffmah, pinned commit), read as text only.
Model and proofs: Lean 4.33.0 + Mathlib, in `/verif/lean/Verif`.

## Layout

| Path | Content |
|------|---------|
| `properties.jsonl` | the properties in English |
| `MANIFEST.json` | property → theorems, status, note |
| `lean/Verif/Model/*.lean` | the model, function by function; each definition cites the file and lines it models |
| `lean/Verif/Spec.lean` | small specification vocabulary, independent of the model |
| `lean/Verif/SpecGrad.lean` | specification for C101-C103: what a gradient is, what is assumed of JAX's derivative rules, where the losses have ties |
| `lean/Verif/SpecRows.lean` | specification for C112: the nearest row of a table |
| `lean/Verif/SpecRandom.lean` | specification for C106 to C109 and C111: what it means that random numbers are standard normal or uniform |
| `lean/Verif/Lemmas/*.lean` | proof machinery |
| `lean/Verif/Props/*.lean` | the property theorems `Cnn_...`, with a small specification at the top of the file where one is needed, and `example` witnesses for their hypotheses |
| `seeded/LOG.jsonl` | wrong programs tried against the theorems, and what failed |

## Trusted base

* **Lean's kernel.** No `sorry`, `admit`, `native_decide`, `bv_decide`, no axioms of our own.
* **Axioms.** `#print axioms` was run on every theorem listed in MANIFEST.json: each depends on
  `propext`, `Classical.choice` and `Quot.sound` (real numbers in Mathlib need all three) and on nothing
  else; `C68_group_key` needs only `propext`.
* **That the model says what the code says.** The model is a shallow embedding, one definition per
  function, with the same branches in the same order. Raised exceptions are values of `PyErr`.
* **The reading of library primitives**, recorded in the comments of the definitions:
  NumPy/JAX `where`, `clip`, `searchsorted`, `interp`, `linspace`, `percentile`, `argmax`,
  `maximum.accumulate`, `array_split`, `concatenate`, `genfromtxt`, `savetxt`, `load`/`save`, broadcasting,
  boolean masks, `vmap`; SciPy `trimmed_mean/std`; Python `namedtuple._replace/_make`, `OrderedDict`,
  `str.format`, `float`, `int`, `split`, slices with negative ends, `range`, `glob`; HDF5 key order;
  the shell command `rm -rf` with a pattern.
  The sandbox has no network and none of these libraries, so the readings were made without their source and
  were not compared with running code. In the Float32 modules this includes the binary search of
  `jnp.searchsorted`; the rounding of `jnp.linspace` is left open there (the tables are parameters).
* **External algorithms are arbitrary.** The theorems quantify over them; what is assumed of them is a
  hypothesis in the statement:
  * `Rng` (`jax.random`): any function of the key; `Rng.Lawful` = documented ranges and shapes.
  * `Ext` (`truncnorm.cdf/pdf`, the eps of `interp`): any; `Ext.Lawful` = a CDF is monotone from 0 to 1.
  * In C106 to C109 and C111 (Model/Normal.lean) they are the normal algorithms that JAX documents: mean plus Cholesky
    factor times standard normal numbers, and the distribution function of a truncated normal, in exact
    arithmetic. `normal_lawful`, `rng_normal_lawful` and `normal_differentiates` prove that these satisfy the
    assumptions below and above.
  * `Env.Differentiates` (C101): JAX's derivative rules for `multivariate_normal` and `truncnorm.cdf` are
    right where the covariance is positive definite and the argument is strictly between the truncation points.
  * `AdamOpt`, `lbfgs`, `Minimizer`: any state machine / any result.
  * the fitting function in the script models: any function of the halo.
  * order of directory listings: any permutation. Schedule of the ranks: any interleaving (`Sched`).

## Number systems

The numerical code is written once, generically over the class `JOps` of the operations the code uses
(`+ - * /`, literals, logistic, natural log, log10, `10**x`, comparison; `JMinMax` adds min and max), and
interpreted several times:

* `ℝ`: values in exact arithmetic.
* `Dual`: dual numbers with the forward-mode rules. `jax.grad` and `value_and_grad` are modelled by
  evaluating the *same code* on dual numbers. That the tangent is the mathematical derivative
  (`HasDerivAt`) is a theorem (`IsAD`), not a definition.
* `XR` (`nan | -inf | +inf | fin r`): exact arithmetic with IEEE-style special values (`x/0`,
  `log 0 = -inf`, `log` of a negative is NaN, comparisons with NaN are false, `0*inf` is NaN). Used
  wherever the code can leave the reals. The sign of zero is not modelled; a zero denominator counts as
  `+0`, which is what `y - y` gives in IEEE arithmetic.

* `F32`: IEEE 754 binary32, the precision JAX uses by default (C98-C100, C121-C131). Every arithmetic result and
  every literal is rounded to nearest, ties to even, with gradual underflow and overflow to infinity. The
  elementary functions are arbitrary (`Libm`); the theorems state what they assume of them
  (`Libm.Sane`: the logistic lies in [0, 1]; `Libm.Accurate`: logistic and log10 within `2^-22`;
  `Libm.AccurateRate`, `Libm.AccurateInverse`: also `10^x`, or the natural logarithm), and a
  correctly rounded platform is shown to meet the assumptions. Not: signed zeros, fused multiply-add,
  reassociation or flush-to-zero by the compiler.
* `Reg` (C101): a value, with a flag that says whether every operation so far was at a point where it is
  differentiable. It is used to state and prove where the losses have a gradient. `Tri` is proof machinery:
  a function, a dual number and a flag together, from which the other three are read off.

Lean's real division, logarithm and powers are total. Where that could hide an error of the code, the
same code is also evaluated on `XR` (C15, C16, C20, C24, C29-C39), or the statement carries the
hypothesis that excludes the case (positive masses and times).

## Files, processes and crashes

A file system is a finite map from path to content. A program (`Prog`) returns, besides its result, the
list of all states the file system goes through; writing a file passes through a state where the file is
torn. A statement about all states in that list is a statement about every crash point. Parallel ranks
are lists of writes; `Sched` is the inductive relation "is an interleaving of". Paths are texts; two
paths are the same file if and only if they are the same text.

## What is modelled

| Repository file | Model | Remark |
|---|---|---|
| diffmah/diffmah_kernels.py | Kernels | all |
| diffmah/defaults.py | Kernels | all |
| diffmah/utils.py | Utils | all |
| diffmah/fitting_helpers/diffmah_fitter_helpers.py | Fitter, Text | all; `f4` casts are an arbitrary function; warnings not |
| diffmah/fitting_helpers/fit_utils.py, bfgs_wrapper.py | Optim | all; Adam's update and L-BFGS-B external (Adam concrete in Adam, for C104 and C105) |
| diffmah/fitting_helpers/measure_mahs.py | Measure | all |
| diffmah/data_loaders/io_utils.py | IO | all |
| diffmah/data_loaders/load_{bpl_um,diffmah_pub,tng,hacc,galacticus_eps}*.py | Loaders | the tables returned by the readers of the simulation formats (haccytrees, umachine_pyio, h5py, numpy) are arguments. Not: `_load_forest`, `get_cosmic_time_hacc` (calls into haccytrees), `get_nhalos_tot` (one h5py read) |
| diffmah/diffmahpop_kernels/{covariance_kernels, early_index_*, late_index_*, logtc_*, frac_early_cens, ftpt0_cens}.py, bimod_logm0_kernels/*, bimod_logm0_sats/* | Pop, CompLoss, CompGrad | copies that differ only in the suffix of the names and the default values (compared with their syntax trees) are one definition with a suffix argument |
| diffmah/diffmahpop_kernels/t_peak_kernels/* | TPeak, CompLoss, CompGrad | truncnorm external, its exact formulas in Normal |
| diffmah/diffmahpop_kernels/{bimod_censat_params, param_utils}.py | PopParams, NamedTuple | all |
| diffmah/diffmahpop_kernels/mc_bimod_{cens,sats}.py | MC, Random | one definition with a `Kind` argument |
| diffmah/diffmahpop_kernels/bimod_{cens,sats,censat}_fithelp.py | PopLoss, PopGrad | values in PopLoss, `value_and_grad` in PopGrad |
| diffmah/diffmahpop_kernels/load_diffmahpop_fitdata.py | Targets | `_load_flat_hdf5` is a copy of io_utils.load_flat_hdf5 |
| scripts/diffmahpop_tabulation/*.py | Targets, Samples | all but the reading of the simulation files |
| diffmah/diffmahpop_kernels/diagnostics/*.py | Diagnostics | what is drawn in each panel and the file names; not labels, legends, axis limits |
| scripts/fitting_scripts/{hacc_lastjourney,hacc_discovery_sims,bolshoi_planck,galacticus,tng}*.py, unchunk_last_journey_script.py | Scripts, Pipeline, Catalogue, Loaders | file names, ranges, rank split, preparation of Galacticus haloes, writing, collating, deleting, `-test`. Not: printing, timing, `os.makedirs` of the output directory; output directories are taken to be the same text as their absolute form |

## Not modelled

* Floating-point rounding, overflow and underflow outside C98-C100, C121-C131: arithmetic is exact. The casts to `f4` in the fitters
  are a parameter. Rounding to six digits when results are printed is modelled (C42).
* The content of the external algorithms named above.
* JAX plumbing: tracing, jit, pytrees, device placement.
* Notebooks, tests, `setup.py`; of the figures, everything but the curves, titles and file names.
* scripts/fitting_scripts/history_fitting_script.py: it imports modules that this version of the package does not
  have (`diffmah.fit_mah_helpers`, `diffmah.load_mah_data`), so it stops at its first lines.
* scripts/fitting_scripts/load_mah_data.py is a copy of load_diffmah_pub_data.py and is not modelled a second time.

## Violations found

These English properties are false of the code; each refutation is a theorem.

| Property | Violation | Theorem |
|---|---|---|
| C03 | for a present time before about 8.95 Gyr some valid halo loses mass before its `t_peak` | `C03_threshold_sharp` |
| C26 | trimming nothing still drops the extreme values, and can give NaN | `C26_not_the_mean`, `C26_nan_without_interior` |
| C32 | the inferred peak time is not the peak of a history that is not monotone | `C32_not_peak_if_not_monotone` |
| C35 | a point below `lgm_min` is used in the fit | `C35_low_mass_point_used` |
| C38 | reaching the tolerance is reported as failure | `C38_tolerance_flagged_as_failure` |
| C42 | a result line with a halo id raises ValueError when read back | `C42_halo_id_unreadable` |
| C43 | a table with neither 8 nor 9 columns is dropped silently | `C43_other_widths_dropped` |
| C44, C85, C86, C87, C94 | a rank with fewer than two haloes makes the run fail | `C44_too_few_haloes`, `C85_too_few`, `C87_blocked`, `C94_tng_too_few`, `C94_bpl_too_few`, `C94_galacticus_too_few` |
| C48, C49 | late_index alpha parameters are overwritten by beta | `C48_alpha_is_lost`, `C49_not_a_roundtrip` |
| C55 | the mean parameters of massive haloes are out of bounds | `C55_massive_haloes_invalid` |
| C64 | the key that draws the peak time also draws the scatter | `C64_key_reused` |
| C113 | for early-type haloes the scatter may depend on the drawn peak time, because of that key | `C113_early_dependent` |
| C66 | the CDF of central peak times reaches 1/t_0 instead of 1 | `C66_cdf_does_not_reach_one` |
| C68 | all columns of a nested group are stored under one key, so only the last survives | `C68_nested_group` |
| C70 | histories with masses below one (negative logs) can come out decreasing | `C70_tng_negative_log`, `C70_published_below_one` |
| C71 | a space in the directory name: an unrelated file is deleted and no chunk is | `C71_space_in_directory` |
| C73 | skipped haloes are kept in the population targets | `C73_skipped_halo_kept` |
| C74 | the default range misses the last subvolume; any `-test` value enables the test mode | `C74_last_subvolume_missed`, `C74_test_flag` |
| C75, C92 | targets can never be tabulated or loaded (wrong number of arguments) | `C75_tabulate_typeError`, `C75_write_typeError`, `C75_load_typeError`, `C92_nothing` |
| C76 | more ranks than haloes: IndexError | `C76_idle_ranks` |
| C77 | with another number of chunks than 20 the collating script misses chunks or looks for files that were not written | `C77_other_chunk_counts` |
| C89 | the logm0 fitters raise for every input | `C89_fit_global_never_works` |
| C91 | samples outside the grid and other files are deleted; no second run after a crash | `C91_off_grid_lost`, `C91_deletes_other_files`, `C91_rerun_after_crash` |
| C96 | the Discovery script raises AttributeError for every input | `C96_discovery_fails` |
| C97 | `-test False` switches test mode on; test mode needs five haloes per rank; an output named like a temporary file, and the temporary files of other runs, are deleted | `C97_test_option`, `C97_bpl_test`, `C97_output_deleted`, `C97_other_runs` |
| C102 | where a correlation is exactly zero, the automatic derivative of its entry below the diagonal is zero | `C102_zero_correlation` |
| C121 | in single precision `lgm0pop_c0_ylo`, `lgm0pop_c0_clip_c1` and `lgm0pop_c1_ylo` (all four copies) can exceed their upper bound | `C121_escapes` |
| C124 | in single precision the gradient of the fit vanishes where all four unbounded parameters exceed 220, whatever the loss | `C124_saturated` |
| C125 | a start that fits exactly is returned with loss zero, but flagged as not terminated; a start with all four unbounded parameters above 220 is returned whatever the target | `C125_exact_start_flagged`, `C125_saturated_start_returned` |
| C103 | three of the unbounded parameters have no effect on the losses over unbounded parameters (a consequence of C48) | `C103_unused` |
| C145 | a snapshot that the cuts exclude becomes the inferred peak time if it has the final mass | `C145_excluded_snapshot_as_peak` |

## Properties: what is modelled and how it is proved

Status as in MANIFEST.json. `partial` always means that the code itself violates the full statement; the violation is proved, and the theorems with the suffix `_partial` state what does hold. What is missing is in the note of MANIFEST.json.

| Id | Property | Status | Model and proof | Theorems |
|----|----------|--------|-----------------|----------|
| C01 | Mass today equals logm0 | proved | `Kernels` over ℝ: `mah_singlehalo`, `mah_halopop`. Algebra at `t = 10**lgt0`. | `C01_mass_today`, `C01_mass_today_array` |
| C02 | Mass is frozen after t_peak | proved | `Kernels` over ℝ. `where(t > t_peak, ...)` read branch by branch; equality of the two branches at the peak. | `C02_frozen_after_peak`, `C02_independent_before_peak`, `C02_array` |
| C03 | Mass never decreases in time | proved | Derivative of the history in log time has the sign of `l s + e (1-s) - (e-l) k s (1-s) d`; bounded below over the box of valid parameters when `t0 >= 9`, hence strictly increasing. The threshold on `t0` is proved sharp (`C03_threshold_sharp`). | `C03_strictly_increasing_until_peak`, `C03_never_decreases`, `C03_array`, `C03_until_today`, `C03_threshold_sharp` |
| C04 | Accretion rate is the time derivative of the mass | proved | `jax.grad` is the tangent of the same code on `Dual`; soundness of each primitive (`IsAD`) gives `HasDerivAt`. | `C04_rate_is_derivative`, `C04_rate_at_peak_is_left_derivative`, `C04_two_gradients_agree` |
| C05 | Accretion rate integrates back to the mass | proved | From C04 with the fundamental theorem of calculus (interval integral), the peak being a single exceptional point. | `C05_rate_integrates_to_mass` |
| C06 | Accretion rate is never negative and vanishes after t_peak | proved | From C03/C04: sign of the derivative. | `C06_rate_zero_after_peak`, `C06_rate_positive_until_peak`, `C06_array_nonneg` |
| C07 | logm0 only rescales the history | proved | Algebra on the kernels over ℝ and on their tangents. | `C07_logm0_rescales`, `C07_rate_rescales` |
| C08 | Raising t_peak only extends the history | proved | Monotonicity in the clamped time. | `C08_later_peak_more_massive` |
| C09 | History lies between its early and late power laws | proved | Sigmoid between its asymptotes, powers of `t/t0 < 1`. | `C09_power_law_envelope` |
| C10 | Population call is the single-halo call row by row | proved | `get_1d_arrays` and the `vmap` over haloes as list maps; permutation by list lemmas; unequal sizes give the error value. | `C10_rows_are_single_haloes`, `C10_shape`, `C10_size_mismatch_rejected`, `C10_permutation` |
| C11 | Value at a time is independent of the time grid | proved | Elementwise map over times. | `C11_pointwise`, `C11_grid_independent`, `C11_scalar_kernel` |
| C12 | get_bounded_mah_params always lands strictly inside the bounds | proved | `get_bounded_mah_params` over ℝ and `XR`; logistic in (0,1). | `C12_bounded_params_valid`, `C12_bounded_params_finite` |
| C13 | Unbounding inverts bounding | proved | Logit of logistic, parameter by parameter, including `late` bounded by `early`. | `C13_unbounded_of_bounded` |
| C14 | Bounding inverts unbounding on the valid domain | proved | As C13 in the other direction on the open box; bijection. | `C14_bounded_of_unbounded`, `C14_bijection` |
| C15 | Invalid parameters are never mapped to finite unbounded values | proved | The same code on `XR`: log of a non-positive number or division by zero; case analysis on special values. | `C15_finite_iff_valid`, `C15_entry_not_finite` |
| C16 | Histories are finite for valid parameters; zero time means zero mass | proved | The kernels on `XR`: finite for valid parameters; `t = 0` gives `-inf` log mass, negative `t` NaN. | `C16_finite_history`, `C16_zero_time`, `C16_negative_time` |
| C17 | Unbounded-parameter entry points agree with the bounded ones | proved | Definitional composition, proved through the bounding transform. | `C17_u_params_entry_points` |
| C18 | Bounding transform is strictly increasing | proved | Derivative-free monotonicity of the logistic; limits at ±∞. | `C18_strictly_increasing`, `C18_limits` |
| C19 | _sigmoid interpolates between its asymptotes | proved | `_sigmoid` of utils.py and its copies. | `C19_sigmoid_between`, `C19_sigmoid_shape`, `C19_utils_copies_agree` |
| C20 | _inverse_sigmoid inverts _sigmoid both ways | proved | `_inverse_sigmoid` over ℝ and `XR`. | `C20_inverse_of_sigmoid`, `C20_sigmoid_of_inverse`, `C20_inverse_special_values`, `C20_utils_copy`, `C20_utils_round_trips` |
| C21 | get_dt_array tiles the time axis | proved | The loop with its carried `tlo` as a fold over the index; loop invariant; IndexError as a value. | `C21_dt_values`, `C21_dt_tiling`, `C21_dt_positive`, `C21_dt_sum`, `C21_dt_defined` |
| C22 | get_dt_array rejects arrays with fewer than two times | proved | Same model; every list of length < 2. | `C22_too_short` |
| C23 | get_cholesky_from_params layout | proved | `get_cholesky_from_params` with cumulative-sum indices for every size; induction on rows. | `C23_cholesky_layout`, `C23_each_parameter_once` |
| C24 | Covariance and correlation conversions are mutually inverse | proved | Matrices over `Fin n`; algebra and the 0/0 rule of `correlation_from_covariance`. | `C24_covariance_entry`, `C24_covariance_properties`, `C24_corr_of_cov`, `C24_cov_of_corr`, `C24_zero_entry` |
| C25 | Trimmed mean is a mean of retained points | proved | `np.percentile` with linear interpolation, strict masks; list lemmas. | `C25_trimmed_mean_value`, `C25_percentile`, `C25_order_independent`, `C25_between_percentiles`, `C25_affine` |
| C26 | Trimming nothing gives the ordinary mean | partial | Same model. Full statement false: witnesses; exact value in the partial theorem. | `C26_zero_trim_partial`, `C26_not_the_mean`, `C26_nan_without_interior` |
| C27 | Trimmed variance is the unbiased variance of the retained points | proved | Same model, weights and unbiased factor. | `C27_same_mean`, `C27_unbiased_variance` |
| C28 | get_1d_arrays broadcasts scalars and nothing else | proved | `get_1d_arrays`, AssertionError as a value. | `C28_broadcast`, `C28_rejects_mixed_sizes` |
| C29 | Skip decision and no-fit result | proved | `diffmah_fitter` over `XR` with abstract optimiser; case analysis. | `C29_skip_iff`, `C29_skipped`, `C29_fitted`, `C29_errors` |
| C30 | Fitted parameters are always valid | proved | As C29 with C12: bounded parameters of whatever the optimiser returns. | `C30_fitted_parameters_valid` |
| C31 | t_peak is not fitted | proved | As C29, tracing `t_peak` through the front end. | `C31_tpeak_fixed`, `C31_tpeak_inferred`, `C31_tpeak_out_of_bounds` |
| C32 | Inferred peak time is the first time at the peak | proved | `get_t_peak` with argmax/first index; list induction. The claim for non-monotone histories is refuted in `C32_not_peak_if_not_monotone`. | `C32_first_index_of_last`, `C32_first_peak`, `C32_not_peak_if_not_monotone`, `C32_halopop` |
| C33 | Only points inside the cuts are used | proved | `get_target_data` masks. | `C33_target_times`, `C33_default_cuts` |
| C34 | Target history is a running peak | proved | `np.maximum.accumulate` by induction. | `C34_running_peak` |
| C35 | lgm_min removes low-mass points | partial | Same model; counterexample and exact filter. | `C35_low_mass_point_used`, `C35_partial` |
| C36 | Optimiser fallback decision | proved | `diffmah_fitter`/`bfgs_adam_fallback` decision as in the code. | `C36_bfgs_used`, `C36_adam_used`, `C36_code_used` |
| C37 | Adam returns the best step it visited | proved | `jax_adam_core` as a state machine over an abstract optimiser; induction on steps with a best-so-far invariant. | `C37_best_step`, `C37_wrapper_best_of_history` |
| C38 | Non-finite values stop Adam and are reported | proved | Same state machine over `XR` losses. | `C38_first_step_fails`, `C38_truncated`, `C38_terminates_iff`, `C38_tolerance_flagged_as_failure`, `C38_wrapper_terminates_iff` |
| C39 | Adam never returns a worse fit than its starting point | proved | From C37 for the first visited point. | `C39_never_worse_than_start` |
| C40 | Fit loss is a genuine mean-square distance | proved | Loss over ℝ; mean of squares. | `C40_mean_square`, `C40_nonneg`, `C40_zero_iff` |
| C41 | Fit gradient is the gradient of the fit loss | proved | Loss on `Dual`; `IsAD`. | `C41_gradient` |
| C42 | Result line round-trips | partial | Text model: `"{:.5e}"` as digits, `float()` as a parser; round trip by digit lemmas. | `C42_roundtrip_partial`, `C42_reprint`, `C42_fill_exact`, `C42_halo_id_unreadable`, `C42_halo_id_first_field` |
| C43 | Collated file keeps every column under its own name | partial | `write_collated_data` on text cells; column by column. | `C43_eight_columns_partial`, `C43_nine_columns_partial`, `C43_names`, `C43_bad_cell`, `C43_other_widths_dropped`, `C43_one_dimensional` |
| C44 | Parallel fitting is serial fitting | partial | `np.array_split`, per-rank text files, `genfromtxt` (one line gives a 1-d array), `concatenate`. | `C44_parallel_is_serial_partial`, `C44_rank_independent_partial`, `C44_too_few_haloes`, `C44_no_ranks` |
| C45 | Target moments are normalised to the sample mass | proved | `measure_target_data`; the last point of the interpolation. | `C45_final_time` |
| C46 | Outlier mask only removes haloes that are outliers at some time | proved | `get_clean_sample_mask` as list maps; invariance by algebra. | `C46_kept_iff`, `C46_logmp_irrelevant`, `C46_shift_invariant`, `C46_no_columns` |
| C47 | Population parameters stay inside their bounds and round-trip | proved | One parametric component model with its bounds; bijection lemma instantiated for each component. | `C47_component_roundtrip` |
| C48 | Late-index parameters round-trip | partial | `late_index_bimod`: the code overwrites alpha by beta; refutation and the beta half. | `C48_beta_roundtrip_partial`, `C48_alpha_is_lost` |
| C49 | Whole-model parameters round-trip | partial | All components of bimod_censat_params.py, named tuples by name. | `C49_u_roundtrip_partial`, `C49_p_roundtrip_partial`, `C49_not_a_roundtrip` |
| C50 | Merging and excluding parameters loses nothing | proved | Name lists of all components; decidable disjointness of the concrete names, general lemmas about `_replace`. | `C50_no_collision`, `C50_partition`, `C50_partition_unbounded`, `C50_exclude_then_merge`, `C50_exclude_restores`, `C50_unknown_name_raises` |
| C51 | Population covariance is always a covariance | proved | The concrete 4x4 assembly; symmetric, diagonally dominant correlation matrix, hence positive definite. | `C51_covariance` |
| C52 | Early fraction is a probability | proved | `frac_early_cens` as sigmoids within bounds. | `C52_frac_early` |
| C53 | Predicted mean shape parameters are valid | proved | Interval arguments on nested sigmoids. | `C53_early_shape`, `C53_late_shape`, `C53_early_index_pop`, `C53_any_parameters` |
| C54 | Predicted present-day mass increases with observed mass | proved | Monotonicity of the logm0 model in `lgm_obs`. | `C54_logm0_increasing` |
| C55 | Predicted mean parameters are always valid single-halo parameters | partial | Interval arguments; explicit range of validity and a massive counterexample. | `C55_mean_params_partial`, `C55_massive_haloes_invalid`, `C55_valid_masses` |
| C56 | Central peak times are physical | proved | `jnp.interp` (searchsorted, clipped index, eps guard) and `linspace` tables; interpolation lemmas; truncnorm external. | `C56_halo`, `C56_range`, `C56_monotone`, `C56_inverts_cdf`, `C56_population` |
| C57 | Satellite peak times are physical | proved | Same for satellites. | `C57_halo`, `C57_range`, `C57_population`, `C57_sats` |
| C58 | Monte Carlo haloes are always valid | proved | Monte Carlo generators over arbitrary `Rng`; composition of C12 and C83. | `C58_single`, `C58_population`, `C58_in_range`, `C58_histories` |
| C59 | Each Monte Carlo halo is exactly its early or its late draw | proved | Selection by one uniform per halo. | `C59_early_or_late`, `C59_histories` |
| C60 | A supplied t_peak is honoured | proved | Same model with supplied peak times. | `C60_t_peak_honoured`, `C60_in_range` |
| C61 | Monte Carlo histories match Monte Carlo parameters | proved | Histories computed from the returned parameters by the kernels of C01. | `C61_histories_match` |
| C62 | Predicted moments are moments of the mixture | proved | Weighted sums over early and late samples; the code weights by the other sample's size, equal here. | `C62_moments_of_mixture` |
| C63 | Population losses are non-negative and vanish only on exact agreement | proved | Sums of squares over bins, centrals and satellites. | `C63_single_bin`, `C63_many_bins`, `C63_censat`, `C63_u_params` |
| C64 | Random keys are never used twice | partial | Keys as a free split tree, every draw recorded. Refuted within one halo; disjointness between haloes, bins and kinds. | `C64_bins_partial`, `C64_censat_partial`, `C64_key_reused`, `C64_haloes_partial`, `C64_supplied_t_peak_partial`, `C64_histories_partial`, `C64_sample_partial` |
| C65 | Fraction peaked today is a probability increasing with mass and time | proved | Sigmoids with bounded parameters. | `C65_ftpt0` |
| C66 | The central t_peak CDF reaches one | partial | Legacy CDF divided by `t_0`; refutation and exact value. | `C66_cdf_partial`, `C66_cdf_does_not_reach_one`, `C66_draw_range`, `C66_population_range` |
| C67 | Named tuples survive HDF5 | proved | HDF5 file as a tree; `_fields`, bytes and identifiers. | `C67_roundtrip`, `C67_non_ascii`, `C67_underscore`, `C67_keyword` |
| C68 | load_flat_hdf5 returns exactly the requested rows and columns | partial | `load_flat_hdf5` on trees with slices and key lists. | `C68_all_columns`, `C68_requested_columns`, `C68_missing_column`, `C68_group_key`, `C68_negative_start`, `C68_chunks`, `C68_group_partial`, `C68_nested_group` |
| C69 | Scatter is a balanced partition | proved | `_scatter_nd` as an event list; balanced blocks by arithmetic. | `C69_scatter`, `C69_load_per_rank` |
| C70 | Loaders return cumulative peak masses | proved | Each loader as a function of the raw table; running maximum, log10 on `XR`. | `C70_hacc`, `C70_bpl`, `C70_tng`, `C70_tng_accepts`, `C70_tng_negative_log`, `C70_published_tng`, `C70_published`, `C70_published_below_one` |
| C71 | Unchunking preserves every fit | proved | File system with traces: every intermediate state is a crash point; invariant over the loop of chunks. | `C71_crash_safety`, `C71_collates`, `C71_missing_chunk`, `C71_space_in_directory` |
| C72 | Rescaled target histories end at the observed mass | proved | Broadcasting subtraction; masks. | `C72_rescale`, `C72_rescale_one`, `C72_rescale_mismatch`, `C72_rescale_empty`, `C72_select` |
| C73 | Failed fits are excluded from population targets | partial | Reader and writer conventions together; refutation. | `C73_dropped_partial`, `C73_skipped_halo_kept` |
| C74 | Default command lines process every subvolume | partial | Command lines with defaults as option values; Python slices with negative ends. | `C74_explicit_range_partial`, `C74_last_subvolume_missed`, `C74_discovery_default_partial`, `C74_discovery_beyond`, `C74_test_flag`, `C74_bpl` |
| C75 | Target loading succeeds on valid tables | partial | Call arity and tuple width as error values; refutation for every non-empty table. | `C75_times`, `C75_tabulate_empty`, `C75_tabulate_typeError`, `C75_tabulate_partial`, `C75_write_no_targets`, `C75_write_typeError`, `C75_write_partial`, `C75_generate_nothing`, `C75_load_empty`, `C75_load_typeError`, `C75_load_partial`, `C75_load_fixed_directory` |
| C76 | Galacticus rank split works for any rank count | partial | `np.array_split` ranges of rank; IndexError. | `C76_tiling_partial`, `C76_idle_ranks` |
| C77 | Chunk output file names are unique and agree between scripts | proved | File names as texts, zero padding; injectivity; shell patterns. | `C77_unique_outputs`, `C77_unique_rank_files`, `C77_cleanup`, `C77_agreement`, `C77_order`, `C77_other_chunk_counts` |
| C78 | Sloped sigmoid passes through its pivot | proved | Algebra. | `C78_sig_slope` |
| C79 | Reported loss belongs to the reported parameters | proved | Fitter front end and wrappers with abstract optimiser. | `C79_fit_loss_is_distance_of_best_fit`, `C79_reported_loss` |
| C80 | Degenerate optimiser settings raise | proved | Degenerate settings of the Adam wrapper, errors as values. | `C80_degenerate_settings` |
| C81 | Target moments are population moments | proved | Interpolation at nodes; means and variances. | `C81_moments_at_nodes` |
| C82 | Target moments depend only on history shapes | proved | Scaling invariance through the logs. | `C82_scale_free` |
| C83 | Halo scatter is Gaussian in the unbounded space | proved | Definition of scatter against an independent specification of the draw. | `C83_scatter_is_normal` |
| C84 | Early, late, central and satellite predictions use their own parameters | proved | Non-interference: equality of results for parameter sets that agree on a set of names. | `C84_early_depends`, `C84_late_depends`, `C84_mean_early`, `C84_mean_late` |
| C85 | Collating the ranks loses no fit | proved | Traces: `os.system("rm -rf pattern")`, `write_collated_data`; every crash point. | `C85_too_few`, `C85_success`, `C85_crash_safety` |
| C86 | The schedule of the ranks does not matter | partial | `Sched`: an inductive interleaving of the ranks' write sequences; confluence of writes to different files. | `C86_every_schedule`, `C86_before_barrier`, `C86_chunk_is_serial_partial` |
| C87 | The whole Last Journey run equals a serial run | partial | Loop over subvolumes and chunks composed with C85, C86 and C71. | `C87_progress`, `C87_blocked`, `C87_crash_safety`, `C87_restart`, `C87_end_to_end_partial` |
| C88 | Component losses measure the misfit | proved | Component losses over ℝ and `Dual`. | `C88_logm0`, `C88_utp`, `C88_tp_cens`, `C88_multimass`, `C88_flex`, `C88_early_index`, `C88_logtc`, `C88_early_index_gradient`, `C88_logtc_gradient` |
| C89 | Component fitters return admissible parameters | partial | Fitters with abstract minimiser; AttributeError as a value. | `C89_t_peak_cens_fitter_partial`, `C89_t_peak_fitter_partial`, `C89_fit_global_never_works` |
| C90 | Collating halo samples keeps every halo | proved | Traces over the glob, load, save and remove sequence; name parsing. | `C90_success`, `C90_crash_safety` |
| C91 | Collating halo samples deletes only what it has collated | partial | Same model; refutations and the part that holds. | `C91_output_exists`, `C91_rerun_after_crash`, `C91_off_grid_lost`, `C91_deletes_other_files`, `C91_nothing_lost_partial` |
| C92 | The sample tables hold the haloes of every subvolume | partial | Writing loop with an arbitrary generator composed with C90; with the real generator (C75) it always raises. | `C92_write`, `C92_end_to_end_partial`, `C92_nothing` |
| C93 | Bins of the sample tables keep their identity through file names | proved | `"{:.2f}"` as digits and `float()` as a parser; spacing of the grid. | `C93_read_back`, `C93_different`, `C93_grid`, `C93_collated_name`, `C93_directories` |
| C94 | Fitting a TNG, Bolshoi-Planck or Galacticus catalogue in parallel loses and mixes up nothing | proved | `Catalogue`: what each rank does as a list of changes to the file system, any interleaving (`Sched`), then rank 0. One generic theorem about processes that own their files (`sched_own`), the text round trip (C42/C43) and the clean-up of C85. | `C94_tng`, `C94_tng_progress`, `C94_tng_too_few`, `C94_tng_crash_safety`, `C94_bpl`, `C94_bpl_progress`, `C94_bpl_too_few`, `C94_bpl_crash_safety`, `C94_galacticus`, `C94_galacticus_progress`, `C94_galacticus_too_few`, `C94_galacticus_crash_safety` |
| C95 | Galacticus haloes are extended to the common final time | proved | `Catalogue`: `allreduce(MAX)` as a maximum over ranks; running maximum (`IsPeakHistory`), list append. | `C95_latest_time`, `C95_prepared`, `C95_extended` |
| C96 | The Discovery script stops on its first halo list without harm to other files | proved | `Catalogue`: names of the package as a list; `getattr` fails before anything is written. | `C96_discovery_fails` |
| C97 | Command line options and clean-up of the catalogue scripts do what they say | partial | `Catalogue`: `bool(text)` of argparse; consequences through C94; pattern of the clean-up. | `C97_output_deleted`, `C97_other_runs`, `C97_bpl_test`, `C97_test_option`, `C97_test_off_partial`, `C97_galacticus_test_option`, `C97_galacticus_test_off_partial` |
| C98 | Bounded parameters stay in range in single precision | proved | `Float32`: the generic code of `Kernels` on `F32`. Monotonicity of rounding; the upper end `lo + (hi - lo)` is recomputed and rounds back to `hi` for each of the bounds (tie to even). | `C98_bounded_params`, `C98_saturates` |
| C99 | Freezing at the peak and the mass today are exact in single precision | proved | `Float32`: `x - x = 0`, `i * 0 = 0` and `0 + m = m` are exact; the branch of `where` is shared. | `C99_frozen_after_peak`, `C99_independent_before_peak`, `C99_mass_today` |
| C100 | Single-precision histories are accurate | proved | `Float32Err`: forward error analysis, operation by operation, in units of `2^-22`; the logistic function is 1/4-Lipschitz. | `C100_log_mass_accurate`, `C100_never_decreases_much` |
| C101 | The losses' gradients are their derivatives | proved | `Model/PopGrad`: the losses generically in the number system, `value_and_grad` by dual numbers. One pass through the code on `Tri` (function, dual number, flag) gives value, tangent and differentiability together; `PopGradHom` shows that the generic code commutes with maps of number systems. Witness: the default parameters, a concrete generator, two bins, any key. `C101_normal_rules`: the derivative rules that the theorems assume of the random generator are proved for the normal algorithms of `Model/Normal`. | `C101_normal_rules`, `C101_loss_gradient`, `C101_sats`, `C101_cens`, `C101_censat`, `C101_censat_u_params` |
| C102 | The covariance matrix is differentiated correctly | partial | `PopGradCov`: the covariance code on `Tri`; on and above the diagonal no choice is made, below it the code chooses by `M == 0`. Violated at zero correlation (`C102_zero_correlation`): `where` takes the transposed entry, which is the constant 0. `C102_draws_half` follows the defect to the halo parameters: at zero correlation the automatic derivative of every drawn parameter is half of its derivative. | `C102_draws_half`, `C102_upper`, `C102_covariance_partial`, `C102_zero_correlation` |
| C103 | Three of the unbounded parameters are never used | proved | `PopGradLoss`: the bounding function of the whole model reads beta in place of alpha (`from_u_eq`), so the three names are never read; a constant function has derivative zero. | `C103_unused`, `C103_gradient_zero`, `C103_returned_zero` |
| C104 | A parameter without gradient stays where it started | proved | `Model/Adam`: `jax_opt.adam` with its default constants on extended reals, coordinate by coordinate. Induction over updates: both moments stay zero. `core_visited`: what is reported is a visited point or its copy. | `C104_trajectory`, `C104_reported`, `C104_fallback` |
| C105 | An Adam fit cannot run away | proved | Same model. Invariant over updates `m^2 <= 53 v` (53 >= (1-b1)^2/((1-b2)(1-b1^2/b2))) and `1 - b2^t <= (1 - b1^t)^2` by induction, so every update is below sqrt 53 < 7.3 step sizes; triangle inequality over steps and warmup rounds. | `C105_trajectory`, `C105_step`, `C105_reported` |
| C106 | Halo-to-halo scatter is Gaussian with the advertised moments | proved | Model/Normal.lean: `jran.multivariate_normal` as mean + Cholesky factor times standard normal numbers (explicit 4x4 factorisation, with JAX's symmetrisation). Prove L Lᵀ = C for positive definite C, identify the law of the draw with Mathlib's `multivariateGaussian`; quantiles by its one-dimensional marginals; medians by monotonicity of the bounding sigmoid. Generators are functions of a point of an arbitrary probability space (SpecRandom.lean). | `C106_scatter_law`, `C106_quantiles`, `C106_medians` |
| C107 | A Monte Carlo population is an independent sample of the advertised mixture | proved | Same model. Write halo i as a measurable function of its own uniform number and its two sets of normal numbers; the law of choosing by an independent uniform number is a mixture; independence of haloes from independence of their random numbers. That such random numbers exist for every key and size is an `example`. | `C107_early_probability`, `C107_population_law` |
| C108 | Drawn peak times have the advertised distribution | proved | Same model, with the normal distribution function for scipy's. A uniform number looked up in a table has the piecewise linear interpolant of the table as distribution function; the error of the interpolant is bounded by the second derivative times the squared step over eight. For satellites the second derivative is bounded with the total mass of the truncated distribution, which is bounded from below by concavity, and the mass outside of the table separately. `truncnorm_cdf` is shown to be the distribution function of Mathlib's Gaussian measure conditioned on the interval. | `C108_centrals`, `C108_satellites`, `C108_halos` |
| C109 | Predicted moments agree with Monte Carlo populations | proved | Both programs are run on the same generator. A halo's histories are shown to be bounded measurable functions of the random numbers of its key: the generic population code is run on the number system of measurable functions (Lemmas/MeasNum.lean), and the drawn peak time is monotone in its uniform number. The prediction is then an average over 200 keys of the type-weighted values, the Monte Carlo halo picks one of the two by an independent uniform number; expectations agree because the numbers of all keys have the same law. Nothing is assumed about the dependence of the numbers within a halo, in particular not that the peak time and the early scatter, which share a key, are independent. Spreads by the variance of a sum of pairwise independent terms, agreement by Chebyshev. | `C109_expected_moments`, `C109_expected_variance`, `C109_agreement` |
| C110 | Peak times fed back reproduce the population | proved | The two paths of mean parameters (peak time drawn inside, peak time given) are both modelled; the theorem composes them: the given-peak-time path at the drawn value returns the same means, and the scatter uses the same keys on both paths. Lifted to populations row by row. | `C110_one_halo`, `C110_population` |
| C111 | Peak-time densities integrate to the distribution that is drawn from | proved | `truncnorm.pdf` and `truncnorm.cdf` as in Model/Normal.lean, over ℝ. The density is integrated by the fundamental theorem of calculus on the truncation interval and vanishes outside it; the law of the draws against it follows from C108's error bound of the tabulated distribution function. | `C111_density`, `C111_satellites`, `C111_centrals` |
| C112 | Best-fit figures compare each bin with its own prediction | proved | `Model/Diagnostics`: a figure is the list of what matplotlib is asked to draw. `argmin` by induction over the table; then the marks are read off the code. The bound by the loss is the definition of the mean squared error. | `C112_epoch`, `C112_epoch_made`, `C112_residuals`, `C112_residuals_made`, `C112_residual_loss`, `C112_files` |
| C113 | Scatter is independent of the drawn peak time | partial | `Model/MC` with the normal numbers of `Model/Normal`. The peak time is a monotone function of one uniform number, the scatter a linear function of the normal numbers of one key, so independence of the numbers is inherited. For the early draw both numbers come from one key; a generator that makes the first normal number and the uniform number from the same bits is the counterexample (`C113_early_dependent`). | `C113_late_partial`, `C113_early_partial`, `C113_early_dependent` |
| C114 | A population with drawn peak times is a random sample | proved | As C113: type and parameters of a halo are one measurable function of its own random numbers (`Lemmas/HaloFun`), so independence and equality of laws are inherited; Chebyshev's inequality for the averages. | `C114_independent`, `C114_averages`, `C114_early_fraction` |
| C115 | Formation times are well defined | proved | `Model/Kernels`. Existence by the intermediate value theorem (the mass tends to zero at early times, C09), uniqueness by strict growth (C03). | `C115_formation_time`, `C115_ordered`, `C115_scale_free` |
| C116 | Each parameter moves the history one way | proved | `Model/Kernels`. The log-mass is a product of the rolling index and the log-time since today; sign of each factor. | `C116_early_index`, `C116_late_index`, `C116_logtc`, `C116_later_formation` |
| C117 | A history determines its parameters | proved | `Model/Kernels`. The power law is real-analytic in log-time, so agreement on a period extends to all log-times; its value today gives logm0, its limits give the two indices, and the strict monotonicity of the sigmoid gives logtc. t_peak by strict growth (C03). `C117_equal_indices` shows why the indices must differ. | `C117_any_period`, `C117_history_determines_parameters`, `C117_unbounded`, `C117_equal_indices` |
| C118 | The results file reproduces the fitted histories | proved | `Model/Text` with `Model/Kernels`. C42 gives relative errors of 5e-6; mean value theorem in each parameter; triangle inequality for root-mean-square distances. | `C118_six_digits_suffice`, `C118_history_from_file`, `C118_misfit_from_file` |
| C119 | A history made by the model is fitted exactly by its own parameters | proved | `Model/Fitter`. The target of a model history is the history itself (C33, C34, C03); the peak index is found from strict growth before and constancy after the peak; bounding inverts unbounding (C14), so the true parameters are among those the optimiser can visit. The optimisers are arbitrary. | `C119_inferred_peak`, `C119_own_parameters_fit_exactly`, `C119_known_peak` |
| C120 | All component fits follow the true gradient of their loss | proved | `Model/CompGrad` over `Dual`, with JAX's rules for `abs` (sign, zero at zero) and the density of the truncated normal distribution as in `Model/Normal`. Whether a data point is inside the truncation limits does not depend on the parameters, so that the density is differentiable in them everywhere. | `C120_utp`, `C120_tp_cens`, `C120_flex`, `C120_logm0_c0`, `C120_logm0_c1`, `C120_multimass` |
| C121 | Bounded population parameters stay in range in single precision | partial | The generic `Component.get_bounded` of `Model/Pop` run on the binary32 numbers of `Model/Float32`. A bounded value is at most `lo + (hi - lo)` recomputed in single precision; for each pair of bounds that number is computed exactly (`Lemmas/Float32Pop`). It is the rounded upper bound for all pairs but three, where it is 1, 2 and 15 units in the last place above. | `C121_in_range_partial`, `C121_escapes` |
| C122 | Accretion rates are accurate and never negative in single precision | proved | JAX's `grad` of the mass history as two passes, forward and backward, generic in the number system (`dmhdt_noq_grad_rev` in `Model/Float32`). Over the reals it is shown equal to `mah_singlehalo`. Over binary32 a forward error analysis of the 20 roundings (`Lemmas/Float32Rate`), errors counted relative to the derivative by the log mass; the log slope is bounded below by 0.1 before the present day and 0.0064 up to 20 Gyr. The order of operations in the backward pass is that of JAX's derivative rules without compiler rewrites. | `C122_same_function`, `C122_zero_after_peak`, `C122_rate_accurate` |
| C123 | Losses of the fit are reliable in single precision | proved | The loss on `F32`. `jnp.sum` is any function that adds up the array in some order and bracketing (`SumOf` in `Model/Float32Fit`), shown to contain the left-to-right sum of the other theorems. Proof: the forward error of one log mass (C100, on the closed parameter box of C98), then monotonicity of rounding: sums of numbers between 0 and `2^k` stay between the largest of them and `n 2^k`. | `C123_histories`, `C123_same_function`, `C123_loss_finite`, `C123_small_loss_close_fit`, `C123_close_fit_small_loss` |
| C124 | Gradients of the fit stay finite in single precision | proved | The backward pass of `value_and_grad(log_mah_loss_uparams)` written out (`loss_grad_rev` in `Model/Float32Fit`), generic in the number system and in the way of adding up; over the reals it is shown equal to `loss_and_grads_kern` (`C124_same_function`). Over binary32 the size of each intermediate result is bounded by a power of two. The order of the products in the backward pass is that of JAX's derivative rules without compiler rewrites. | `C124_same_function`, `C124_gradient_finite`, `C124_exact_fit_stationary`, `C124_saturated` |
| C125 | Fits with Adam cannot break down in single precision | proved | `jax_opt.adam` with each operation rounded (`adamCell32`, `jaxAdam32` in `Model/Float32Adam`), square root and powers being platform functions of stated accuracy (`AdamMath.Good`); loss and gradient are those of C123 and C124. Invariant of one coordinate: the first moment is no larger than the gradients, and its square at most 64 times the second moment (plus `2^-130`), unless the second moment has overflowed, in which case the update is zero. The loop is the model of C36-C39 run with this optimiser. The update rule is that of the library's documentation; JAX's compiler may fuse operations, which is not modelled. | `C125_step_length`, `C125_adam_succeeds`, `C125_fallback_succeeds`, `C125_stationary_start`, `C125_exact_start_flagged`, `C125_saturated_start_returned` |
| C126 | Parameters survive the way through the unbounded space and back in single precision | proved | The transforms of C13 and C47 run on binary32 numbers; the platform's logistic function and logarithm are assumed accurate to `2^-22` and right at zero and infinity (`Libm.AccurateInverse` in `Model/Float32Trip`, met by the correctly rounded platform). The quotient in the inverse is either infinite (parameter at the lower bound), exactly one (parameter at the upper bound), or at least `1 + 2^-23`; in the last case the error of the logarithm, amplified by at most its own size, is damped again by the slope of the logistic function (`sigmoid_rel`). The early index is recovered from the late index that came back, not the one that went in. | `C126_halo_round_trip`, `C126_population_round_trip` |
| C127 | Population predictions and Monte Carlo haloes are accurate and valid in single precision | proved | The generic population kernels run on binary32 numbers (`Model/Float32Mean` adds `maximum` and `minimum`). A forward error calculus (`Near x X B e`: the binary32 value is within `e * 2^-24` of the exact one, which is at most `B`) has a rule for each operation; applied operation by operation it bounds every prediction by `1024 * 2^-24`. The means stay clear of the bounds by more than that, so their unbounded counterparts are finite, adding noise cannot give NaN, and C98, C100 and C126 apply. The noise is an arbitrary vector, so nothing about the Cholesky factor or the generator is assumed. `C127_from_unbounded` bounds the whole model in single precision, with the late-index mix-up of C48 as in the code. | `C127_mean_accurate`, `C127_mean_valid`, `C127_monte_carlo`, `C127_from_unbounded` |
| C128 | The scatter of Monte Carlo haloes cannot break down in single precision | proved | The generic covariance code of C102 and the Cholesky factorisation of C106 run on binary32 numbers (`Model/Float32Cov` adds selections and the correctly rounded square root). Entry (i, j) is measured in units of the product of the standard deviations: then every intermediate result is at most 3/2, every rounding error at most `2^-23`, and interval arithmetic over the ten entries of the factor shows that the pivots stay above 0.3 (`cholesky_unit`). The same bookkeeping gives the backward error. The products are subtracted one after the other; LAPACK may group them. Normal numbers are given; with them C127 yields the generated halo. | `C128_covariance`, `C128_monte_carlo` |
| C129 | Peak times drawn in single precision are finite and physical | proved | The code of C108 run on binary32 numbers (`Model/Float32Peak`). The binary search of `jnp.searchsorted` is modelled step by step, as we read JAX without its source, and an invariant over its levels gives what it finds in any table, sorted or not; so the quotient in `jnp.interp` is in [0, 1] after rounding, and the result in the range of the ordinates up to `10 * 2^-24`. How `jnp.linspace` rounds is left open: the tables are parameters, assumed within `2^-20` of the interval they divide (`TablesOk`), and `truncnorm.cdf` is only assumed to return numbers of size at most 2 (`EnvOk`). The whole halo then follows from C128. | `C129_peak_times`, `C129_monte_carlo` |
| C130 | Moments and losses of populations are accurate and finite in single precision | proved | The code of `Model/PopGrad` run on binary32 numbers (`Model/Float32Moments`), with the haloes of C129 and sums taken in any order (`SumOf`). Every addition of representable numbers has a relative error of at most `2^-24`, so each sum is the sum of its terms, each within 200 roundings; the error of the variance is bounded through the deviations about the computed mean (Minkowski), which gives the scatter to `2^-9` even where it vanishes. The losses are means of squares: an invariant over the bracketing of the sum bounds them, and C127_from_unbounded supplies the parameters. | `C130_moments_accurate`, `C130_loss_finite`, `C130_cens_loss_of_any_step`, `C130_censat_loss_of_any_step` |
| C131 | Monte Carlo catalogues are valid and accurate in single precision | proved | The code of `Model/MC` run on binary32 numbers (`Model/Float32Catalog`): C129 (C128 with given peaks) for the two haloes drawn for each key, the error bound of `kern_near` for the history and of `rate_before_peak` for the rate, zero after the peak. The early halo is chosen by the comparison `u < f` of the computed numbers. `C131_same_function`: over the reals it is the code of the other theorems. | `C131_catalogue`, `C131_parameters`, `C131_same_function` |
| C132 | Histories and rates are differentiated correctly in every argument | proved | The code run on dual numbers (`Model/Jvp`); for the rate, the reverse pass of `Model/Float32` is run on them, since the code differentiates once itself. Each operation carries the derivative (`IsAD`), the two branches at the peak are either locally constant or agree along the direction, and `C122_same_function` identifies the reverse pass with the rate of the other theorems. Forward and reverse mode give the same number in exact arithmetic, which is assumed. | `C132_directional`, `C132_unbounded`, `C132_gradient`, `C132_no_gradient_after_peak` |
| C133 | Histories and fits do not depend on the units | proved | The rolling power law depends on time only through `log t - lgt0` and `log t - logtc`; the rate by its closed form. For fits, the clipped log masses shift by one constant, which commutes with the relative cut, the running maximum, the count of points below the last one and the search for the first entry equal to the last. The change of unit of time is proved for histories and the loss only, because the fitter has an absolute cut at 1 Gyr. | `C133_history`, `C133_loss`, `C133_fit_target`, `C133_fit_peak` |
| C134 | Every population parameter sets the limit its name says | proved | `Reads params name v` says that the named parameter has value `v`; `Step`, `Corners`, `Bends` and `MassPeakObs` spell out the limits and the half-way point with Mathlib's `Tendsto`. One lemma on the logistic function with moving end points proves all of them. Each theorem is instantiated at the default parameters. | `C134_frac_early`, `C134_frac_peaked`, `C134_sats`, `C134_old_cens`, `C134_early_index_early`, `C134_early_index_late`, `C134_early_index_pop`, `C134_late_index_early`, `C134_late_index_late`, `C134_logtc_early`, `C134_logtc_late`, `C134_logm0_early`, `C134_logm0_late`, `C134_logm0_early_sats`, `C134_logm0_late_sats`, `C134_ftpt0`, `C134_scatter`, `C134_population` |
| C135 | The loss of a fit bounds its error at every time | proved | `C135_at_target` and `C135_worst_point` compare the mean of the squares with its largest term; `C135_between_targets` adds that histories never decrease (C03). `C135_fit` composes them with C79 (the reported loss belongs to the reported parameters), C33 and C34 (which points are compared, and with what). A complete run on a concrete history meets every hypothesis. | `C135_at_target`, `C135_worst_point`, `C135_between_targets`, `C135_fit` |
| C136 | The two indices of a halo are the slopes of its history | proved | The deviation from either power law is the difference of the indices times the logistic function (or its complement) times the time before today; the logistic function is below the exponential. The limits follow from `x exp(-x) -> 0`. `powerLaw` is the only specification. | `C136_early_power_law`, `C136_late_power_law`, `C136_half_way`, `C136_early_limit`, `C136_early_slope`, `C136_slope_today`, `C136_starts_from_nothing`, `C136_initial_rate` |
| C137 | Errors in the simulated masses change a fit no more than their size | proved | The running peak is non-expansive in the largest difference (through the characterisation of the target as a greatest element, C34), and the root of a mean of squares satisfies the triangle inequality (Cauchy-Schwarz). A halo and its copy with doubled masses meet all hypotheses. | `C137_loss`, `C137_target`, `C137_fit` |
| C138 | Predicted mean histories and drawn histories never decrease | proved | Every sampled halo is valid (C58), a valid halo's history never decreases (C03) and is frozen after its peak (C02), and the predicted mean is a weighted mean of sampled histories with weights that do not depend on time (C62). The drawn histories are those of the drawn parameters (C61). C03 needs an age of about 9 and is sharp there, so the same bound appears here. | `C138_mean_never_decreases`, `C138_frozen`, `C138_drawn` |
| C139 | Six times determine the parameters of a halo and the solution of its fit | proved | The difference of two rolling power laws in log-time, times its denominators, is a sum of three terms (linear function) x exp(j k x), j = 0, 1, 2. Such a sum has at most five zeros unless all coefficients vanish (Rolle, applied four times), and vanishing coefficients force equal parameters. The statements on fits combine this with C119 (the halo's own parameters have loss zero), C33 (which times are fitted) and C79 (the reported loss belongs to the reported parameters). Six is sufficient; C140 shows that four are enough when today is one of them; whether four or five arbitrary times are enough is not decided. | `C139_six_times`, `C139_unbounded`, `C139_fit_has_one_solution`, `C139_fit_known_peak`, `C139_zero_loss_iff_recovered` |
| C140 | The least number of points a fit asks for is the right one | proved | Given logm0, a mass at another time fixes the index at that time, and the index is a fraction linear in exp(k log t) on both sides, so agreement at three times gives a quadratic with three zeros; its coefficients vanish. For the converse, moving logtc slightly and solving two linear equations for the indices keeps both masses, and validity is an open condition. The fit theorem reads from C29 that a fit that is not skipped has three targets below the last, from C03 and C34 that they are distinct times before today, and that today is then a target too. Proved for exact arithmetic and for histories that have not peaked before the last time; for peaked ones see C139. | `C140_today_and_three`, `C140_two_are_not_enough`, `C140_every_fit_has_one_solution`, `C140_zero_loss_iff_recovered` |
| C141 | Fits with small errors recover the parameters | proved | The map from (logtc, early, late) to the index at three log-times takes each value once (C140) and has injective derivative (a quadratic in the sigmoid with three zeros), so on the compact parameter box its inverse is Lipschitz at the halo: near the halo by the derivative, away from it by compactness. C135 bounds the distance of the fitted history from the running peak of the data, and the running peak of data within d of an increasing history is within d of it. The constant exists but is not computed; it depends on the halo and the times only. | `C141_masses`, `C141_fit` |
| C142 | Accretion rates summed with the steps of get_dt_array give the history | proved | Induction over the cells of get_dt_array (C21): before the peak the growth over a cell is the rate at some time inside it (mean value theorem), which differs from the rate at the cell's own time by no more than the uniform continuity of the rate allows; at most one cell contains the peak; later cells contribute nothing. No validity of the parameters is needed. | `C142_summed_rates`, `C142_linspace` |
| C143 | The predictions of the population model determine its parameters | proved | The sigmoids are analytic, so predictions that agree on an interval agree everywhere (identity theorem); the limits of C134 then give the parameters, and injectivity of the sigmoid the half-way points. Nested transitions are taken apart one variable at a time. Off the clipping limits, clipping is the identity. Parameter sets are any named tuples that have the attributes; the example shows that all default parameters of the early fraction are determined. The final-mass kernel is a maximum of an affine function of log mass with the observed mass, and the covariance kernel is a set of sigmoids in log mass with free correlations; the same argument gives their parameters. | `C143_frac_early`, `C143_frac_peaked`, `C143_sats_loc`, `C143_sats_scale`, `C143_early_index`, `C143_late_index`, `C143_late_index_default`, `C143_logtc`, `C143_scatter`, `C143_ftpt0`, `C143_logm0_t_obs`, `C143_logm0_t_peak`, `C143_covariance` |
| C144 | The logarithmic slope of a halo is bounded by the indices, and exceeds the early index at early times | proved | The rate formula proved for C136 writes the slope as early_index plus the difference of the indices times sigmoid(u) ((1 - sigmoid(u)) 3.5 (lgt0 - log10 t) - 1). The bounds follow from s (1 - s) <= 1/4. The factor in brackets is strictly decreasing until today, negative from today on, and positive early enough, so the intermediate value theorem gives exactly one zero. The growth between two times follows from the monotone exponent and the Lipschitz bound 1/4 of the sigmoid. | `C144_bounds`, `C144_overshoot`, `C144_crossing`, `C144_growth`, `C144_doubling`, `C144_formation` |
| C145 | Snapshots outside the cuts do not change a fit | proved | `Model/Fitter`. The target arrays are a function of the snapshots inside the cuts, the last time and the last mass; the inferred peak time is the first index with the last mass in single precision, which moves by the number of added snapshots. The fitter uses its tables only through these. The counterexample to the statement without the proviso follows from C31. | `C145_only_used_snapshots`, `C145_early_snapshots`, `C145_excluded_snapshot_as_peak` |
| C146 | Trimmed moments are robust against outliers | proved | `Model/Utils`. The sorted sample is the sorted low outliers, the sorted rest and the sorted high outliers. The two percentiles are at ranks inside the rest, so they depend on the rest only and lie between its values; the strict inequalities then drop all outliers. The moments are those of the retained points (C25, C27). | `C146_outliers`, `C146_within_bulk` |
| C147 | The best mass of a fit has residuals that average to zero | proved | `Model/Fitter`, `Model/Kernels`. A change of `logm0` shifts all residuals by the same amount (C07), so the mean square (C40) is a parabola in `logm0` whose slope is twice the mean residual. `C41` identifies the computed gradient with the derivative, and the derivative of the bounded mass is positive. | `C147_mean_residual`, `C147_best_mass`, `C147_closed_form` |
| C148 | A stationary point of a fit is the best halo with its transition time | proved | `Model/Fitter`, `Model/Kernels`. For fixed transition and peak times the log mass is linear in `logm0` and the two indices, so the loss is a quadratic form in them. The chain rule through the bounding functions is triangular with positive diagonal, so a vanishing gradient gives the normal equations of the linear least-squares problem, and the excess loss is the mean squared change of the predictions. | `C148_stationary_excess`, `C148_stationary_is_best`, `C148_unique` |
