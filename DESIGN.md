# Formal model of argodmqc_owc in Lean 4

## Layout

The numerical and bookkeeping core of `pyowc` (`/repo/pyowc`) is modelled function by function as total Lean functions.

- `lean/Verif/Np.lean`: the few NumPy functions the code relies on (`argwhere`, `argsort`, `nanargmin`, `unique`, fancy indexing, ...), and `PyErr`, the exceptions.
- `lean/Verif/Model`: the code, one definition per function or block, each with the lines of `/repo` it models.
- `lean/Verif/Spec`: the words in which properties are stated (calendar order, ellipse, best linear estimate, ...). They do not use the model's helpers.
- `lean/Verif/Lemmas`: auxiliary lemmas.
- `lean/Verif/Props`: the property theorems with concrete examples that meet their hypotheses.
- `properties.jsonl`, `MANIFEST.json`: the properties and the theorems that prove them.
- `seeded/LOG.jsonl`: wrong programs the theorems were tested against.

## Modelling conventions

- **Numbers.** Python floats are exact elements of an ordered field `K` (instances `ℚ` and `ℝ`), or of `ℝ` where exp, sin, sqrt or matrices occur. Rounding, overflow and underflow are not modelled.
- **Missing values.** NaN is `none` in `Option K`; comparisons with NaN are false, arithmetic with NaN is NaN. Infinities are treated as NaN where the code tests `isfinite`, and are otherwise not modelled.
- **Exceptions** are values of `Except PyErr`.
- **Mutation** of arrays becomes a returned new value. Where a property is about aliasing, caching or files, the store is explicit and changes step by step.
- **External calls** are parameters; any assumption on them is a visible hypothesis of the theorem: the optimiser of scipy, `gsw`, random numbers, numpy's unstable `argsort` (`IsArgsort`), `np.interp` (`IsInterp`, met by a concrete function), `interp2d`.
- **Arrays** are `List`s, and `Matrix` or `Fin n → ℝ` for the linear algebra.
- **False properties.** If the property one would expect is false of the code, there is a theorem with the negation (or a witness) and a theorem with suffix `_partial` for the part that holds; the status is then "partial". In some cases the property is stated as the exact condition under which it holds; the status is then "proved" and the note says "Finding".

## Trusted base

- Lean 4.33.0's kernel, with the axioms `propext`, `Classical.choice` and `Quot.sound` only. No axiom of our own, no `sorry`, no `native_decide`, no `bv_decide`. `decide +kernel` is used only for closed finite facts (concrete examples and witnesses, equalities of literal strings, a complete small table); the kernel itself evaluates them.
- The Mathlib definitions that occur in statements (`Real.exp`, `Matrix.PosSemidef`, `List.Perm`, ...).
- The faithfulness of the model. The code was read, not run. Every definition cites its lines.

### Axioms of each theorem

Every theorem named in MANIFEST.json depends on `propext`, `Classical.choice` and `Quot.sound` and on no other axiom, except the following, which need fewer:

- only `propext`: `same_name_overwrites`, `killed_before_saving`
- only `propext, Quot.sound`: `cal2dec_only_value_error`, `cal2dec_bad_month`, `cal2dec_fails_iff`, `change_dates_elementwise`, `change_dates_bad_date_is_zero`, `change_dates_short_is_zero`, `signal_variance_value`, `signal_variance_perm`, `noise_variance_shift`, `interp_shape`, `argo_own_float_never_used`, `cached_reads_repeatable`, `saf_north_identity`, `saf_used_above_five`, `selected_points_no_cast`, `saved_salinities_plausible`, `run_writes_only_at_end`, `sal_var_drops_rows`, `single_cast_file_ignored`, `cached_read_ignores_disk`, `set_calseries_old_file_fails`, `anom_fails_iff`, `uninterrupted`, `map_drawn_iff`, `map_named_often`, `shows_something`, `print_cfg_injective`

## What is modelled

| Source | Model |
|---|---|
| `pyowc/utilities.py`: `spatial_correlation`, `sorter`, `wrap_longitude`, `potential_vorticity`, `cal2dec`, `change_dates` | `Model/Utilities` |
| `pyowc/core/finders.py`: `find_ellipse`, `find_besthist`, `nearest_neighbour`, `find_25boxes` | `Model/Finders` |
| `pyowc/core/finders.py`: `find_10thetas` | `Model/Thetas` |
| `pyowc/core/stats.py`: `signal_variance`, `noise_variance`, `covar_xyt_pv`, `build_cov`, `covarxy_pv` | `Model/Stats` |
| `pyowc/core/stats.py`: `brk_pt_fit` | `Model/BreakFit` |
| `pyowc/core/stats.py`: `fit_cond`, `nlbpfun` | `Model/FitCond` |
| `pyowc/data/wrangling.py`: `map_data_grid` | `Model/Mapping` |
| `pyowc/data/wrangling.py`: `interp_climatology` and its helpers | `Model/Interp` |
| `pyowc/data/fetchers.py`: `get_topo_grid` | `Model/Topo` |
| `pyowc/data/fetchers.py`: `read_mat_*`, `get_data`, `get_region_hist_locations`, `get_region_data`, `_sync_nans` | `Model/Region`; the `lru_cache` in `Model/Cache` |
| `pyowc/data/fetchers.py`: `frontal_constraint_saf` | `Model/Saf` |
| `pyowc/helper.py`: `process_profile_hist_variables`, `remove_statical_outliers`, `selected_historical_points` | `Model/Helper` |
| `pyowc/helper.py`: `load_varibales_from_file`, `process_profiles_la_variables`, `check_and_make_numpy_arry`, `sort_numpy_array` | `Model/Update` |
| `pyowc/helper.py`: `get_float_data`, `process_profiles_grid_variables` | `Model/Profile` |
| `pyowc/calibration.py`: `update_salinity_mapping` | `Model/Level` (one level), `Model/Profile` (one profile), `Model/Update` (the run, its files and crash points) |
| `pyowc/calibration.py`: `calc_piecewisefit` | `Model/Piecewise` |
| `pyowc/configuration.py`: `set_calseries` | `Model/Calseries` |
| `pyowc/configuration.py`: `load`, changes of the dictionary; `pyowc/calibration.py:70-82`: reading it | `Model/Settings` |
| `pyowc/calibration.py`: how `calc_piecewisefit` joins source, mapped and calseries file (397-463) | `Model/Analysis` |
| `pyowc/plot/plots.py`: `sal_var_plot` | `Model/SalVar` |
| `pyowc/plot/plots.py`, `pyowc/plot/dashboard.py`, `pyowc/plot/utils.py`: numbers drawn by the other plots | `Model/Plots`, `Model/Diagnostics` |
| `pyowc/plot/plots.py`, `pyowc/plot/dashboard.py`: the calls of `matplotlib.pyplot` and the figures they act on | `Model/Pyplot` |
| `pyowc/plot/plots.py`: `draw_shapes_as_patches`; `pyowc/configuration.py`: `print_cfg` | `Model/Shapes` |
| Names of all files read and written by the four steps and the figures | `Model/Workflow` |
| Interruptions of the four steps, before and while they save | `Model/Crash` |
| Processes that run the four steps at the same time, one file access after the other | `Model/Parallel` |

## What is not modelled

- Floating-point rounding, overflow and the time the code takes.
- The drawing of the figures: colours, fillings, axes. Only the numbers drawn, the lines of the shapes, the file names, and which figure a drawing goes to are modelled.
- `print` output.
- The formats of `.mat` files. Files are modelled by their contents. `savemat` is not atomic: a crash may leave a torn file.
- The computations inside scipy, gsw and matplotlib.
- The distribution of random numbers: the draws of `fit_cond` and `find_besthist` are a parameter of the model, and the theorems hold for all draws (C177 gives the lengths of the intervals of draws that pick a cast).

## Assumptions about the environment

- `pymatreader.read_mat` squeezes arrays of length one; `scipy.io.loadmat` does not. `loadmat` appends `.mat` if the path does not exist.
- Reading a file whose saving was interrupted raises an exception, which is not `FileNotFoundError`.
- Profile numbers are never NaN.
- A mapped salinity and its error are both present or both missing, as the mapping writes them.
- Conversion of NaN to an integer gives a negative number (x86).
- Matplotlib refuses NaN as an axis limit, and `contourf` refuses data with fewer than two columns (`TypeError`).
- `plt.figure()` opens a figure with the next number, `plt.figure(n)` makes figure `n` current or opens it, drawing goes to the current panel, `savefig` writes the current figure, and only `plt.show()` may close figures.
- The shape files of coastline and bathymetry exist.
- NumPy older than 1.24: lists of unequal length become object arrays.
- For file names: the directories exist, no `..` or symbolic link occurs, letter case matters.
- The scales and the age of the configuration are not 0 (Python would raise `ZeroDivisionError` in `find_besthist`).
- Nothing is assumed about `np.interp` if the abscissae are not ascending.
- `scipy.interpolate.interp2d(kind="linear")` on a rectangular grid is bilinear in every cell and constant beyond the southern edge (only C45 and C128 use this; elsewhere it is an arbitrary function).

## Plan and result per property

For each property: what is modelled and how it is proved; status; theorems (in namespace `Verif.Props`).

- **C01 sorter assigns every point to its interval.** Model `sorter` (stable argsort of the concatenation, positions of the points minus 1..n). Spec: counting boundaries <= the k-th smallest point. Proof: merge sort correctness (permutation, sorted, stable) and counting. *Proved*: `sorter_counts_boundaries`, `sorter_interval`, `sorter_length`.
- **C02 wrap_longitude never changes a position and is idempotent.** Model both masked updates. Congruence and idempotence by cases on each element and on the `any >= 320` test. *Proved*: `wrap_longitude_congruent`, `wrap_longitude_range`, `wrap_longitude_idempotent`, `wrap_longitude_not_idempotent_below`. Idempotence holds for inputs >= -360, and is shown false below.
- **C03 Longitude differences across Greenwich survive wrapping.** Same model; spec is a signed arc coordinate d in (-40, 80); wrapped value = 360 + d for every point. *Proved*: `wrap_longitude_keeps_differences`, `wrap_longitude_keeps_differences_in_boxes`, `wrap_longitude_can_break_differences`. Windows: 40 degrees either side of Greenwich, and the box windows find_25boxes can choose. A witness shows the claim false for wider sets.
- **C04 cal2dec is strictly increasing over the calendar year.** Model over a field with the 13-entry table. Spec: lexicographic order of date-times and exact day count. Proof: finite table lemma lifted by arithmetic. *Proved*: `cal2dec_exact`, `cal2dec_range`, `cal2dec_strict_mono`, `cal2dec_leap_day_collides`. 29 February collides with 1 March.
- **C05 cal2dec rejects out-of-range months and days with ValueError only.** Same model with Python's negative indexing and `Except`; total decision of the outcome. *Proved*: `cal2dec_only_value_error`, `cal2dec_bad_month`, `cal2dec_fails_iff`, `cal2dec_negative_month`. Month index 12 and negative indices are accepted by the code.
- **C06 change_dates is element-wise and never fails.** Model per-string decoding with Python slices and `int()`; array function = map. Proof by induction over the list. *Proved*: `change_dates_elementwise`, `change_dates_bad_date_is_zero`, `change_dates_short_is_zero`, `change_dates_negative`, `change_dates_float_day_is_zero`. Finding: valid 8-digit dates in a float array become 0.
- **C07 change_dates preserves chronological order.** Same model restricted to 14-digit strings produced from date fields by a printer in the spec; round trip parse(print) then C04. *Proved*: `change_dates_exact`, `change_dates_strict_mono`.
- **C08 potential_vorticity is never zero.** Model over the reals with Real.sin. *Proved*: `potential_vorticity_ne_zero`, `potential_vorticity_sign`, `potential_vorticity_antisymm`, `potential_vorticity_equator`, `potential_vorticity_value`.
- **C09 spatial_correlation is a generalised squared distance.** Model over the reals; algebra. *Proved*: `spatial_correlation_nonneg`, `spatial_correlation_symm`, `spatial_correlation_eq_zero_iff`, `spatial_correlation_antitone`, `spatial_correlation_pv_bounded`.
- **C10 Only historical casts inside the ellipse are ever selected.** Model `find_besthist` with the random numbers as an arbitrary list and argsort as an arbitrary sorting permutation. *Proved*: `besthist_only_inside`.
- **C11 find_besthist returns all candidates when there are few.** Same model, first branch. *Proved*: `besthist_few_returns_all`, `besthist_zero_depth_fails`. With the potential vorticity constraint all depths must be non-zero: a cast of depth 0 makes the call fail (proved).
- **C12 find_besthist returns exactly max_casts distinct casts when there are many.** Same model, counting: |random part| + |large part| + |small part| = max_casts and disjointness. *Proved*: `besthist_many_exact_size`.
- **C13 find_besthist fills the remaining two thirds by closeness.** Same model, sortedness of argsort prefix. *Partial*: `besthist_closest_partial`, `besthist_closest_pv`, `besthist_pv_closeness_ignores_float`. Proved without the potential vorticity constraint. With it the claim is false: spatial_correlation gets its arguments in the wrong order. besthist_closest_pv says what closeness is used then, besthist_pv_closeness_ignores_float is a selection that goes wrong.
- **C14 find_besthist for small max_casts.** Same model; negation proved with witnesses, bound proved for max_casts=3 or >=5 (`_partial`). *Partial*: `besthist_at_most_partial`, `besthist_one_returns_all_but_one`, `besthist_one_returns_six`, `besthist_two_four_fail`, `besthist_one_fails`. False for max_casts = 1 (negation proved); ValueError for 2 and 4, and for 1 with two or three casts in the ellipse; holds for every max_casts >= 2.
- **C15 find_25boxes returns the box containing the float and its neighbours.** Model nearest_neighbour on the two axes, the table look-up and the 25 look-ups over an ordered field. *Proved*: `boxes_are_neighbours`, `boxes_centre_contains_float`, `boxes_cell_exists`, `boxes_centre_edge_witness`, `boxes_negative_longitude_witness`. Findings: a float within 0.01 degree of an eastern or northern edge gets the neighbouring box; longitudes below -10 get the wrong box.
- **C16 find_25boxes always indexes the box table within range.** Same model. *Proved*: `boxes_in_range`, `boxes_nan`.
- **C17 find_25boxes never returns the same box twice.** Same model; true for |lat| < 70, witness near the pole. *Proved*: `boxes_distinct_iff`, `boxes_repeat_near_pole`. An equivalence; nearer to the poles the boxes repeat.
- **C18 find_10thetas respects the user's temperature and pressure limits.** Model masks, pressure levels and selection loop with Option values. *Proved*: `thetas_index_usable`, `thetas_levels_between`, `thetas_levels_within_limits`, `thetas_pressures_within_limits`, `thetas_level_in_excluded_band`. Finding: levels can lie in an excluded middle band.
- **C19 find_10thetas picks the levels of least salinity variance.** Same model; selection loop invariant. *Proved*: `thetas_least_variance`, `thetas_variance`.
- **C20 find_10thetas finds in each profile the level nearest to the chosen theta.** Same model; first-minimum lemma. *Proved*: `thetas_index_nearest`, `thetas_index_found`.
- **C21 signal_variance is a variance.** Model with Option values, population variance; algebra over an ordered field. *Proved*: `signal_variance_value`, `signal_variance_nonneg`, `signal_variance_eq_zero_iff`, `signal_variance_shift`, `signal_variance_scale`, `signal_variance_perm`.
- **C22 noise_variance is well defined and bounded.** Model with first-index argmin over non-coincident casts. *Proved*: `noise_variance_value`, `noise_variance_coincide`, `noise_variance_total`, `noise_variance_bounds`, `noise_variance_constant`, `noise_variance_shift`.
- **C23 covar_xyt_pv is a correlation matrix.** Model over the reals as Matrix; PSD via Schur product theorem, the exponential series and an integral (or series) representation of the PV kernel. *Proved*: `covar_value`, `covar_is_correlation`, `covar_range`, `covar_transpose`, `covar_succeeds_iff`. Includes positive semi-definiteness of the potential vorticity kernel. Finding: the documented latitude column is scaled by the argument called long.
- **C24 build_cov produces entries in (0,1] with unit diagonal.** Model over the reals with table interpolation; entry-wise bounds. *Proved*: `build_cov_entry`, `build_cov_diagonal`, `build_cov_fails_iff`, `build_cov_ok`.
- **C25 build_cov is symmetric.** Negation by explicit witness on the same model. *Partial*: `build_cov_symmetric_partial`, `build_cov_not_symmetric`, `build_cov_not_symmetric_equator`. False (two negations proved). Symmetric only where both scale tables are flat, for equal temperatures and without potential vorticity.
- **C26 brk_pt_fit returns the weighted least-squares piecewise-linear fit.** Model the design matrix and normal equations over an ordered field; optimality by completing the square with a positive weight. *Proved*: `brk_fit_least_squares`, `determined_example`, `brk_fit_unsorted_wrong`. Determined is the data-level meaning of an invertible normal matrix (lemma determined_iff). brk_fit_unsorted_wrong: ascending x is necessary.
- **C27 brk_pt_fit reproduces exact piecewise-linear data.** Same model, uniqueness of the solution. *Proved*: `brk_fit_exact`, `brk_fit_unsorted_wrong`.
- **C28 brk_pt_fit degenerate input.** Same model, error branches. *Proved*: `brk_fit_undetermined`, `brk_fit_mismatch`, `brk_fit_fails_iff`.
- **C29 The optimiser's break points are always ordered and interior.** Model over the reals with exp and cumulative sums. *Proved*: `optimiser_breaks_ordered`, `optimiser_limits`, `optimiser_breaks_few`.
- **C30 fit_cond validates its keyword arguments.** Model the argument loop; induction over the list. *Proved*: `args_odd`, `args_bad_name`, `args_last_wins`, `fit_args_error`, `fit_args_unchecked`.
- **C31 fit_cond effective degrees of freedom lie between 1 and the number of points.** Row sums of a matrix with entries in [0,1] and unit diagonal; sum of reciprocals. *Proved*: `fit_ndf_between`, `fit_ndf_independent`, `fit_ndf_dependent`.
- **C32 fit_cond chooses the model with the smallest AIC, fewest breaks on ties.** Model the AIC loop with the optimiser as a parameter. *Proved*: `fit_chooses_least_aic`, `residuals_exist`.
- **C33 fit_cond keeps x and y paired.** Negation by witness on the model of the preamble of fit_cond; sorted input partial result. *Partial*: `fit_order_partial`, `fit_order_matters`, `fit_ignores_pairing`. False (fit_order_matters). Proved for observations listed with ascending profile numbers.
- **C34 Objective mapping is well posed.** Matrix model over the reals; PosDef from C23; Schur complement for the radicands. *Proved*: `map_is_best_estimate`, `map_error_bounds`, `map_error_ge_simple`, `map_no_data`.
- **C35 Objective mapping reproduces constants and is equivariant.** Same model; linear algebra. *Proved*: `map_constant`, `map_affine`, `map_additive`, `map_is_best_estimate`.
- **C36 Objective mapping does not depend on cast order.** Same model; matrix reindexing. *Proved*: `map_permutation`.
- **C37 Noise-free mapping interpolates.** Same model with noise 0 and an invertible covariance. *Proved*: `map_interpolates`.
- **C38 interp_climatology interpolates between two bracketing levels.** List/Option model of the vectorised interpolation. *Proved*: `interp_spec`, `crossing_between`.
- **C39 interp_climatology chooses the crossing nearest in pressure.** Same model; first arg-min. *Proved*: `interp_spec`, `nearest_unique`.
- **C40 interp_climatology gives missing exactly when there is no crossing.** Same model. *Proved*: `interp_spec`, `interp_local`, `interp_shape`.
- **C41 Gaps in climatology profiles do not matter.** Same model; compaction is filter. *Proved*: `interp_gaps`.
- **C42 get_topo_grid returns the requested window of the bathymetry.** Integer-arithmetic model of the row/column computation. *Proved*: `topo_grid_window`, `topo_grid_full_circle_fails`, `topo_grid_swapped`. A window over the full circle can fail (topo_grid_full_circle_fails); exchanged limits are a ValueError (topo_grid_swapped).
- **C43 get_region_hist_locations and get_region_data agree on cast numbering.** Model of both traversals over an abstract file store. *Proved*: `hist_locations_spec`, `region_data_numbering`, `region_data_spec`.
- **C44 get_region_data keeps the columns of one cast together.** Same model with NaN padding. *Proved*: `region_data_spec`, `region_data_none`, `region_data_first_cast_empty`.
- **C45 The depth used for a cast is the depth of that cast.** Composition of the models of find_besthist's index order and get_region_data; negation by witness, partial for sorted index. *Partial*: `attached_depths_partial`, `own_depths_partial`, `depth_of_chosen_cast`, `besthist_not_ascending`, `besthist_not_ascending_concrete`, `depth_of_other_cast`. False (besthist_not_ascending; depth_of_other_cast for a whole profile). Proved: the depths are right exactly if the numbers are ascending and every cast has data (attached_depths_partial), so in a run with few casts that all have data (own_depths_partial); whose depths they are in general (depth_of_chosen_cast).
- **C46 The float under test is never compared with itself.** Filter model; substring test as in Python `in`/str.find. *Proved*: `argo_own_float_excluded`, `argo_own_float_never_used`.
- **C47 Reading reference data is repeatable.** Cache state machine. *Proved*: `cached_reads_repeatable`, `cached_call_twice`.
- **C48 The SAF constraint keeps only casts of the float's own class.** Model of the classification with Option values. *Proved*: `saf_north_identity`, `saf_subsequence`, `saf_keeps_own_side`, `saf_envelope_decides`, `saf_undecided_keeps_all`, `saf_used_above_five`. np.interp is a parameter with the assumptions IsInterp, met by scan_isInterp. The side of a cast is computed without the last row, see C90.
- **C49 selected_historical_points keeps a well-separated covering set.** Fold model with invariants. *Proved*: `selected_points_spec`, `selected_points_history`, `selected_points_no_cast`.
- **C50 The outlier test removes exactly the outliers, and few.** Model of the outlier test of a level with the population deviation; a counting argument (Chebyshev) bounds the number of outliers by a ninth. *Proved*: `few_outliers`, `no_outlier_among_ten`, `level_drops_outliers`, `remove_outliers_exact`.
- **C51 process_profile_hist_variables keeps exactly the comparable casts.** Filter model. *Proved*: `hist_casts_are_comparable`, `hist_casts_need_pressure`.
- **C52 Sorting the mapped output by profile number keeps data with its profile.** Permutation model; negation by witness and exact characterisation. *Partial*: `fresh_run_aligned_partial`, `fresh_run_misaligned`, `fresh_run_file`. False (fresh_run_misaligned). Proved for ascending profile numbers.
- **C53 Mapped salinities are in range or missing.** Model of the quality-control step. *Proved*: `saved_salinities_plausible`.
- **C54 A rerun without new profiles changes nothing.** Model of the missing-profile detection and save. *Proved*: `rerun_keeps_content`, `reruns_keep_content`, `fresh_run_consistent`.
- **C55 A failed run leaves the previous mapping untouched.** State machine with a file store and crash points. *Proved*: `run_writes_only_at_end`.
- **C56 Calibration treats every calseries segment independently and skips segment 0.** Fold over unique non-zero series with masked writes. *Proved*: `calibration_fills_segments`, `calibration_segments_independent`. For settings without prescribed break points; with them see C105.
- **C57 Depths are looked up at the float's own positions.** Model of the depth look-up in both steps; the arguments of the interpolation are computed and compared with the true position. *Proved*: `float_depth_at_own_position`. interp2d is a parameter. Outside these longitudes the window can leave the file.
- **C58 set_calseries is idempotent.** State machine over the calseries file. *Proved*: `set_calseries_idempotent`, `set_calseries_repeated_numbers`. The second theorem shows why repeated numbers are excluded.
- **C59 set_calseries excludes exactly the profiles without good data.** Same model. *Partial*: `set_calseries_excludes_partial`, `set_calseries_saved`, `set_calseries_excludes_wrong_profile`, `set_calseries_lost_profile`. False in general (two witnesses); proved for ascending profile numbers with a file for the same profiles, and the exact content of the file for any order.
- **C60 set_calseries accepts new profiles.** Same model; error branch. *Partial*: `set_calseries_new_profiles_partial`, `set_calseries_new_profile_fails`. False: every new profile raises AttributeError. Proved: it succeeds exactly if there is no new profile.
- **C61 Salinity on theta levels is drawn from exactly the levels within the limits.** Model of the masks of `sal_var_plot`, including the index arrays that NumPy takes as row numbers. The claim is false; `_partial` for the cases where it holds, witness for the others. *Partial*: `sal_var_exact_partial`, `sal_var_drops_rows`. Holds without limits and with an upper limit of temperature only; else false.
- **C62 find_10thetas blanks exactly the unusable cells of the caller's arrays.** Model of `find_10thetas`; the masked data are returned by the model. *Proved*: `thetas_mask`.
- **C63 Salinity on a theta level is never extrapolated.** Same model; the value is a convex combination of two neighbours. *Proved*: `thetas_salinity_between`.
- **C64 Pressure levels returned by find_10thetas belong to the theta levels.** Same model; the level is the mean pressure of the index column. *Proved*: `thetas_level_is_mean`.
- **C65 Objective mapping is the best linear unbiased estimate.** Matrix model; Gauss-Markov: the weights minimise the mean squared error among linear unbiased weights. Proof by completing the square with the inverse covariance. *Proved*: `map_is_best_estimate`. Uniqueness of the weights is isBestWeights_unique, used for C36.
- **C66 Objective mapping fails on noise-free duplicates and on constant salinity.** Same model; a singular covariance raises. *Proved*: `map_duplicate_cast_fails`, `map_constant_salinity_fails`. Findings: both crash the run with LinAlgError.
- **C67 fit_cond without break points is a weighted mean or a weighted regression line.** Model of `fit_cond` from arguments to results; the two simple models are computed in closed form. *Proved*: `fit_result`.
- **C68 fit_cond falls back to the weighted mean when there is little information.** Same model; the branches for few degrees of freedom. *Proved*: `fit_offset_when_few`.
- **C69 When fit_cond without break points returns.** Same model; the line is singular exactly if all data are at one profile. *Proved*: `fit_returns_without_breaks`.
- **C70 fit_cond reproduces a constant.** Same model; scaling, regression and scaling back. *Proved*: `fit_constant`, `fit_constant_returned`.
- **C71 fit_cond reproduces a straight line.** Same model; uniqueness of the regression. *Proved*: `fit_linear_exact`.
- **C72 fit_cond does not depend on units.** Same model; the scaled data are invariant. *Proved*: `fit_affine`.
- **C73 fit_cond reports the standard error of the weighted mean.** Same model; the error formula reduces to the standard error. *Proved*: `fit_offset_error`.
- **C74 fit_cond reports the mean of each profile.** Same model; false in general (witness), `_partial` for one observation per profile. *Partial*: `fit_profile_mean_partial`, `fit_profile_mean_wrong`. False (fit_profile_mean_wrong). Proved for one observation per profile.
- **C75 Break points found by the optimiser make fit_cond fail.** Same model with the optimiser as a parameter; the error loop raises for free break points. *Proved*: `fit_free_breaks_fail`, `fit_broken_line_fails`, `fit_free_breaks_fail_case`. Finding.
- **C76 Given break points are used only if max_no_breaks is their number.** Same model; case analysis of the argument parsing. *Proved*: `fit_breaks_alone_fail`, `fit_fixed_fails`, `fit_fixed`. Finding: see also calc_piecewisefit.
- **C77 interp_climatology reproduces a level of the climatology.** Model of `interp_climatology`; a level at exactly the float's temperature and pressure is the nearest crossing. *Proved*: `interp_reproduces`.
- **C78 When interp_climatology raises.** Same model; an equivalence for the exception. *Proved*: `interp_fails_iff`. Findings: a climatology without two good levels in a station, or a homogeneous station at exactly the float temperature, ends the run with ValueError.
- **C79 The value stored at a level is a two-stage best linear estimate.** Model of one level built from the models of its parts; the result is described by C65's best weights twice. *Proved*: `level_mapping_spec`.
- **C80 When the mapping of a level crashes.** Same model; an equivalence for the exception. *Proved*: `level_fails_iff`, `level_constant_fails`, `level_one_position_fails`, `noise_variance_eq_zero_iff`. Finding: one level with constant salinities ends the whole run.
- **C81 The mapping of a level commutes with a change of unit.** Same model; every part is equivariant. *Proved*: `level_affine`.
- **C82 When a level is skipped.** Same model; the guards of the loop. *Proved*: `level_skipped_iff`, `level_mapped`.
- **C83 A reference file with a single cast is ignored.** Model of the reader with squeezed arrays. *Proved*: `single_cast_file_ignored`. Finding.
- **C84 A reference file is read once per process.** Cache state machine; the disk may change between two calls. *Proved*: `cached_read_ignores_disk`.
- **C85 A chosen cast without usable levels costs only itself.** Model of `get_region_data`; false (witness), `_partial` if the first chosen cast has a usable level. *Partial*: `region_lost_casts_partial`, `region_data_first_cast_empty`. False (region_data_first_cast_empty). Proved if the first chosen cast has a usable level.
- **C86 New profiles cannot be added to a mapped file.** Model of the outer loop: a loaded array has no `append`. *Proved*: `new_profiles_exception`, `run_with_new_profiles_fails`. Finding.
- **C87 A run without any mapped level saves nothing.** Same model: an unbound name. *Proved*: `run_without_mapped_level_fails`. Finding.
- **C88 With a float directory the mapped file is never reused.** Same model: different paths to load and to save. *Proved*: `other_path_not_reused`. Finding.
- **C89 A repeated float pressure south of 30S aborts the run.** Model of the SAF constraint: ties of the float's pressures. *Proved*: `saf_repeated_pressure_fails`. Finding.
- **C90 The side of a cast is decided by all its levels.** Same model; false (witness), `_partial` for casts whose last row is missing. *Partial*: `saf_keeps_own_side_partial`, `saf_last_row_ignored`. False in general (saf_last_row_ignored); proved for casts whose last row is missing.
- **C91 One profile without usable reference casts stops the whole run.** Composition of all models of one profile; induction over the loop. *Proved*: `successful_run_found_casts`, `run_without_casts_saves_nothing`. Finding: the code means to skip such a profile.
- **C92 Levels that cannot be mapped are saved as missing.** Same composition. *Proved*: `saved_missing`.
- **C93 Saved mapping errors and variances are not negative.** Same composition with the bounds of C34 and C22. *Proved*: `saved_errors_nonneg`.
- **C94 The result for a profile does not depend on the other profiles.** Same composition; the column saved is a function of the own profile. *Proved*: `saved_column_independent`.
- **C95 A float is never mapped with its own data.** Same composition; two disks that differ only in casts of the float itself give the same file. *Proved*: `own_casts_never_influence`.
- **C96 Longitude differences near Greenwich.** Same composition; exact condition under which the longitude difference used is the true one. *Proved*: `longitude_difference_iff`, `run_fails_across_greenwich`, `mapping_longitude_off`, `matchLongitude_spec`, `greenwich_run_fails`, `greenwich_run_wrong`. Finding: the property one would expect (always the true difference) is false; this is the exact condition.
- **C97 Depths can always be looked up.** Model of the depth look-up; the window lies in the file. *Proved*: `float_depth_defined`, `grid_depths_defined`. The interpolation interp2d on the window is a parameter.
- **C98 set_calseries leaves at most one limit of each kind.** Model of `set_calseries`; false (witness), `_partial` for limits with one entry in each row. *Partial*: `set_calseries_limits_partial`, `set_calseries_keeps_row_of_limits`. False for limits stored as a row.
- **C99 Calseries files from before use_percent_gt are accepted.** Same model; false (KeyError), `_partial` for files with the entry. *Partial*: `set_calseries_percent_partial`, `set_calseries_old_file_fails`. False: KeyError for every such file.
- **C100 Calibrated values follow from the factor, level by level.** Model of `calc_piecewisefit` with the functions of `gsw` as parameters; the values saved for one cell. *Proved*: `calibrated_cells`. gsw is a parameter.
- **C101 A correction has one sign.** Same model; monotonicity of the conversions is a hypothesis. *Proved*: `factor_one_changes_nothing`, `correction_has_one_sign`. The properties of gsw are hypotheses.
- **C102 Factors of a segment lie on a straight line.** Same model with C67. *Proved*: `segment_factor_is_linear`, `no_breaks_saved`.
- **C103 The time derivative has the sign of the change of the factors.** Same model; `_partial` for ascending numbers and a witness for descending ones. *Partial*: `factor_follows_derivative_partial`, `descending_numbers_reverse_trend`. Holds for ascending numbers; the second theorem shows the reversed sign for descending numbers.
- **C104 What a segment needs to be calibrated.** Same model; the exceptions of the loop. *Proved*: `segment_needs_data`, `repeated_numbers_all_equal`, `no_history_no_calibration`.
- **C105 Settings of the calibration take effect or are reported.** Same model; what happens for rejected settings and for prescribed break points. *Partial*: `limit_of_own_segment_partial`, `rejected_settings_save_nothing`, `prescribed_breaks_give_nothing`, `prescribed_breaks_outcome`, `missing_breaks_fail`, `row_limits_fail`, `only_first_limit_counts`. False; the theorems say what happens instead.
- **C106 The calibration uses the configured scales for longitude and latitude.** Same model; the covariance actually used, and a witness that it is another one. *Partial*: `calibration_scales_partial`, `calibration_scales_swapped`. False; the theorem gives the covariance actually used.
- **C107 The calibration completes.** Same model; no branch raises under the stated conditions. *Proved*: `calibration_completes`. Without potential vorticity.
- **C108 Salinities on theta levels are interpolated, never extrapolated.** Model of `sal_var_plot`; the value is on the line between two cells on either side of the level. *Proved*: `sal_var_values`. Model of the values drawn.
- **C109 When sal_var_plot fails under limits.** Same model; exact condition for the `IndexError`. *Proved*: `sal_var_index_error`, `sal_var_never_completes`.
- **C110 Salinity anomalies are deviations from the median at equal temperature.** Model of `sal_anom_plot`: first value per temperature, interpolation, median. *Proved*: `anom_matrix`, `anom_matrix_order`, `anom_value`, `anom_order_free`, `anom_balanced`, `anom_shift`, `anom_fails_iff`, `anom_repeated_temperature`.
- **C111 The averaged offset is a mean over the levels with both salinities.** Model of the averages in `cal_sal_curve_plot`. *Proved*: `avg_offset`.
- **C112 The legend names at most thirty profiles.** Model of the legend with `np.arange` and ceiling; counting. *Proved*: `legend_at_most_30`, `legend_every`.
- **C113 Longitudes are drawn between -180 and 180.** Model of the longitudes drawn. *Proved*: `drawn_longitude`.
- **C114 The steps of an analysis build on each other.** State machine over files named as in the code; what the steps compute is a parameter. Paths are lists of characters split at `/`. *Proved*: `mapped_found_iff`, `analysis_uses_own_results`. What the steps compute is a parameter.
- **C115 Floats do not interfere.** Same state machine; induction over a history of steps of any floats. *Proved*: `floats_do_not_interfere`. Induction over the history.
- **C116 Mapped data of a float in a directory of its own are never updated.** Same state machine; induction over the history. *Proved*: `mapped_in_directory_never_updated`, `no_calibration_in_directory`. Induction over the history.
- **C117 Mapped data are filed by the name of the float alone.** Same state machine; the names agree. *Proved*: `same_name_overwrites`. Finding: the directory is not part of the name.
- **C118 Every step looks for files under the names under which they were saved.** Same state machine; exact condition on the settings. *Proved*: `postfixes_must_agree`. An exact condition on the settings.
- **C119 No figure overwrites another.** Same path model; injectivity of the names of the figures. *Proved*: `figures_distinct`.
- **C120 The error of the time derivative is a scaled variance.** Model of the error branch of `fit_cond`; the 2x2 normal matrix is inverted by hand. *Proved*: `fit_time_deriv_err`, `time_deriv_err_case`. Finding.
- **C121 The error of an offset under correlations.** Same model; the sum over the correlation matrix is bounded entry by entry. *Proved*: `fit_offset_error_bounds`, `fit_offset_error_equal`, `fit_offset_error_unequal`.
- **C122 The error of a straight line does not depend on the values.** Same model with the random draws as a parameter; the fitted noise is a line of least squares. *Proved*: `fit_line_error_ignores_values`, `fit_line_error_noise`. The random numbers are a parameter.
- **C123 Calibrations are repeatable up to the errors.** Same model: two values of the parameter for random draws; equality of results with the errors erased, through all loops of `calc_piecewisefit`. *Proved*: `fit_repeatable`, `fit_offset_repeatable`, `calibration_repeatable`, `fit_errors_not_repeatable`. The results of the search for break points are taken to be the same in both runs.
- **C124 The data counted for the mean and scatter of a profile.** Same model: `np.where` windows of the sorted data are computed as sets. *Proved*: `fit_station_window`, `fit_station_bounds`. Finding: see C74.
- **C125 Interruptions do not reach other floats.** State machine of C114 with damaged files and interrupted steps; induction over the history. *Proved*: `interruptions_stay_local`, `uninterrupted`. Induction over the history. The second theorem says that the model without interruptions is that of C114-C119.
- **C126 What can be run again after an interruption.** Same state machine; the files read by the step are not changed by the history. *Proved*: `killed_before_saving`, `calibration_repaired`, `mapping_repaired_in_directory`. Induction over the history.
- **C127 A file damaged by an interruption has to be deleted by the user.** Same state machine; invariant over the history: the file stays damaged. *Proved*: `damaged_mapped_blocks`, `damaged_calseries_blocks`. Finding. Assumes that reading a damaged file raises an exception other than FileNotFoundError.
- **C128 The depth used is that of the bathymetry at the position.** Specification DepthAt: bilinear elevation in the cell of the position. Assumption IsInterp2d about scipy, with a function that satisfies it. Composition with the theorem on the window read from the file (C42), for the three places where depths are computed. *Proved*: `float_depth_right`, `grid_depths_right`, `calibration_depth_right`, `depth_well_defined`. scipy's interp2d is a parameter of which IsInterp2d is assumed: bilinear in a cell, constant south of the window. grid2_isInterp2d gives a function with these properties.
- **C129 The saved coefficients are those of all segments in order.** Same model as C102; induction over the segments for the concatenation, and the form of the coefficients from the fit in original units. *Proved*: `coefficients_by_segment`. With the order of the segments given by any ascending list of the non-zero values of calseries.
- **C130 Which mapped values a profile is calibrated with.** Model/Analysis puts the columns of the source and of the mapped file together as the code does (by position). The matrices written by a run (C52) are gathered twice by the sort order; ranks by counting. *Proved*: `calibration_partner`, `calibration_compares_own`, `calibration_compares_other`. Finding: other orders than ascending or descending.
- **C131 Calibration with the settings of a first set_calseries.** Composition of the models of `set_calseries` and `calc_piecewisefit` with the theorems C59, C100 and C102. *Proved*: `first_settings`, `first_calibration`.
- **C132 A constant offset is found and removed.** Model of `fit_cond` with constant values: the search stops at the offset before the optimiser is called. *Proved*: `constant_offset_recovered`. Assumes that SP_from_C inverts C_from_SP for the last statement. For max_breaks -1 and 0, C107 says when the calibration completes.
- **C133 What a run saves, in terms of its input files.** Composition of the models of all parts of the mapping: selection (C10 to C12), reference data (C43, C44), interpolation (C38), noise (C22) and estimates (C79). Spec/Saved says what a level should contain in terms of the casts on file. *Proved*: `saved_value`, `noise_variance_is`. The casts used stand at their longitudes beside the other chosen casts, the k-th depth that of the k-th chosen cast (finding C45). Noise variance 0 makes the run fail, so it does not occur in a run that succeeds.
- **C134 Levels outside the limits have no influence on the fit.** Comparison of two runs: find_10thetas depends on the data left by its masking only, the ten levels refer to usable cells (C18), the rest of a segment to these levels; induction over the segments. *Proved*: `only_levels_within_limits_count`, `settingsOf_bounds`. For one limit of each kind, as in C98. The values of the levels themselves follow from the factors (C100).
- **C135 The levels from which find_10thetas chooses.** Exact evaluation of the levels in terms of the least and greatest usable value, for ordered fields with floor. *Proved*: `thetas_candidates`, `thetas_need_range`, `thetas_small_range_fails`. The exceptions are findings.
- **C136 The map shows all reference casts and names the profiles.** Model of the data frames, the axes and the labels of the map; list reasoning. *Proved*: `map_drawn_iff`, `map_shows_casts`, `map_labels`, `map_named_often`, `map_misses_float`. The coastline and bathymetry shapes are in C152. The last theorem is a finding.
- **C137 The error bars belong to the chosen levels.** The error bars are computed from the numbers of levels found by find_10thetas (C20); induction over the chosen levels. *Proved*: `error_bars`. The mapped values are those in the column of the same position (C130).
- **C138 Which figures plot_diagnostics saves.** plot_diagnostics as a sequence of steps that stops at the first exception, with the models of the single plots; the failure under limits comes from C109. *Proved*: `figures_in_order`, `figures_complete_iff`, `figures_without_levels`, `figures_cut_by_limit`. The last two statements are findings. Drawing is taken to succeed except for the exceptions named in the model.
- **C139 Data that do not determine the allowed break points make fit_cond fail.** Model of the search loop with the exception for singular normal matrices; the determinant vanishes exactly if some broken line other than 0 is 0 at the data. *Proved*: `fit_value_error_iff`, `fit_few_profiles_fails`, `fit_one_profile_fails`. Finding. The failure is the ValueError of assigning a residual of shape (n, 1) to a row of length n, when brk_pt_fit returns early for a singular matrix.
- **C140 What the number of loops changes in fit_cond.** fit_cond is split into the part before the error loop, which does not see nloops, the loop as far as it can fail, and the conversion to original units; compare two values of nloops in that form. *Proved*: `nloops_positive`, `nloops_default`, `nloops_offset`, `nloops_refused`, `nloops_negative_errors`, `nloops_negative_fit`, `nloops_free`, `nloops_negative_chooses`. The statements about negative numbers are findings.
- **C141 Levels added to the source are never mapped.** Extend the model of loading the mapped file to a source with more levels than the file; show that the padded file is consistent, and that a run with no missing profile saves what it loaded; compose with the first run. *Proved*: `rerun_more_levels`, `gained_levels_not_mapped`. Finding. The loaded arrays are padded with rows of NaN, and only profiles whose number is not in the file are computed.
- **C142 What the saved figures show.** Model pyplot as a state machine (open figures with numbers, panels and drawings; a current figure; saved files) and plot_diagnostics as the list of its calls; invariant over the calls of a session. *Proved*: `separate_figures`, `session_figures`, `shows_something`, `script_saves`. Matplotlib's list of open figures is modelled; whether show() closes them and whether a new panel removes overlapped ones are parameters.
- **C143 Figures that are drawn over others.** In the same state machine, follow figure 1 through the calls when show() leaves figures open, and the figure left by a failed call. *Proved*: `map_on_current`, `map_over_broken`, `curve_over_map`, `map_over_profiles`. Findings. plots.py:55 draws on gca() without opening a figure, lines 228 and 633 call figure(1), and no figure is ever closed.
- **C144 Floats may be analysed at the same time.** Write each step as a program of single accesses to files; a schedule says which process moves. A process that writes no file of another one leaves its run as it is alone (induction over the schedule); run alone, the program refines the model of interrupted steps. *Proved*: `parallel_results`, `parallel_ends`, `parallel_stopped`. Steps are programs of single file accesses; run alone they are the steps of C125-C127. Reading a file takes one moment.
- **C145 The same float must not be mapped and calibrated at the same time.** Same model with two processes and one float. Rely-guarantee invariant over the schedule: one process owns the mapped file, the other one knows its three possible contents; explicit schedules for the three results. *Proved*: `either_order`, `fit_while_mapping`, `fit_while_mapping_all`. Finding: savemat writes in place and there is no lock, so a reader may find a damaged file.
- **C146 A linear drift of the sensor.** Model of the whole calibration. A line is an exact solution of the weighted normal equations, so that Akaike's criterion stops at it; the effective number of degrees of freedom is bounded below by summing the rows of the correlation matrix profile by profile. *Proved*: `linear_drift`, `drift_found`, `drift_recovered`, `drift_shifted`. The last part is a finding: the line starts at the first usable profile, but its slope is applied from the first profile of the segment (fit_cond subtracts different origins, see C71).
- **C147 A drift that changes its slope makes the calibration fail.** Composition: the broken line has no deviation and so the least value of Akaike's criterion, the models before it do not, so it is chosen; a chosen broken line with searched breaks ends with an exception (C75). *Proved*: `bent_drift_fails`, `bent_drift_line`. Finding: the broken line is the best fit, and then the uncertainty loop of fit_cond fails (C75).
- **C148 The plots after a calibration with one segment get as far as the salinities on the chosen levels; a profile outside the segments can stop them after the map.** Compose the models of calc_piecewisefit and plot_diagnostics: the levels the plots see are those of the data (the shapes of the saved calibration agree), so find_10thetas gives the same result as in the only segment; the rest by the cases of the plots (C138). The counterexample is a third profile, not calibrated, in which two neighbours of the nearest level have the same temperature. *Proved*: `plots_find_levels`, `plots_after_calibration`, `plots_fail_by_excluded_profile`.
- **C149 More or better data never make the objective mapping less certain.** Corollary of C65 (the mapping is the best linear unbiased estimate): the weights of the first call, with weight 0 for the other casts, have the same mean squared error in the second; the mean squared error of fixed weights is a combination of signal and noise variance with coefficients that are not negative. *Proved*: `map_error_monotone`.
- **C150 The mapping does not look at the salinities that are to be tested, unless the Subantarctic Front is used.** Equality of the work done for each profile (profileOf), by cases on the presence of a salinity at a level; the front is the identity if off or north of 30S. The exception is a concrete pair of floats, evaluated by the kernel. *Proved*: `mapping_blind`, `front_looks_at_salinities`.
- **C151 print_cfg shows every parameter of the configuration.** Model of the text as a list of characters. Reading back: cut at the first new line, then at the first colon, then remove the blanks. *Proved*: `print_cfg_lines`, `print_cfg_injective`, `print_cfg_ambiguous`.
- **C152 Coasts, depths and reefs are drawn part by part.** Model of the codes of a path (MOVETO at the starts of the parts, LINETO elsewhere) and of the lines matplotlib draws for them; induction over the parts. *Proved*: `shapes_drawn`, `shapes_fail`. The filling of the shapes with colour is not modelled.
- **C153 Only differences of dates matter to the mapping.** Simulation: the two runs have the same exceptions and results that differ in the dates only, through the reading of the casts, the choice of casts, the front, the preparation and the mapping of a level; dates enter the ellipses and covariances as differences only. *Proved*: `mapping_dates_relative`, `moved_year`. Casts whose dates cannot be read are decoded as year 0 whatever their text; with such casts the hypothesis that all dates are moved cannot be met.
- **C154 Without MAP_USE_PV the sea floor does not influence the mapping.** The same simulation with depths that are equally many; they are looked at only if MAP_USE_PV is 1. The reading of the topography fails for the same windows, since files have equal length. *Proved*: `mapping_ignores_depths`.
- **C155 An offset or another unit of the reference salinities appears unchanged in the mapped salinities.** Run level: the model of update_salinity_mapping with the reference files on disk. Proved by showing that every stage (reading, interpolation, outliers, variances, both mappings, storing, sorting, range check) commutes with s -> a s + b; the salinities are linear in all kriging formulas and the covariances do not contain them. *Proved*: `mapping_in_units`.
- **C156 Numbers of profiles and labels of segments are names.** The models of fit_cond and of the calibration of a file, with the numbers replaced. The numbers are used only after subtraction of their centre and division by their scale, and in the comparison with break points; labels are compared with each other and with 0 only. *Proved*: `fit_renumbered`, `calibration_renumbered`, `calibration_relabelled`.
- **C157 The saved values when the Subantarctic Front is respected.** C133 without the assumption that the front is not used. The columns after the criterion are those of a sub-sequence of the casts (C33, C90), and the level loop is shown for the columns of any such sub-sequence. *Proved*: `saved_value_front`, `side_exists`, `floatSide_exists`. The in-situ temperature (gsw) is a parameter.
- **C158 Reference casts that are out of reach have no influence.** The results of get_data for the two sets of files are related cast by cast; casts that differ have an ellipse value of at least 1, whatever the potential vorticity adds, so that the same indices are chosen, and get_region_data does not look at the casts that are not chosen. *Proved*: `mapping_local`.
- **C159 The way in which the longitudes of reference casts are written does not matter.** The results of get_data for the two sets of files are related cast by cast; the states of the loop of get_region_data differ only in the way in which longitudes are written, and wrap_longitude gives the same for both. *Proved*: `mapping_meridians`.
- **C160 Reference data far below the float have no influence.** As C159; the levels kept of two such casts are the same for every limit that is not deeper. *Proved*: `mapping_shallow`. Files with at least two levels, as in all theorems on reference files.
- **C161 The order of the casts at a level matters only where nearest neighbours are tied.** Signal variance, noise variance and the two-stage estimate depend on the samples through sums over them; a permutation is an equivalence of the positions. The best weights are unique, so the values are. For the negative part six casts on a line with a tie. *Proved*: `level_order`, `level_order_matters`. Casts missing a salinity are not among those that meet a level (C133).
- **C162 The order of the casts in the reference files does not matter.** From C133: without the potential vorticity the ellipse depends on the position only, and if not too many casts are in it all are chosen in the order of the files. The samples of a level are then a filtered list of the casts, which is permuted with the files; C161 does the rest. A concrete case: the same world with a file turned round. *Proved*: `saved_order`, `saved_order_first`, `saved_few`. saved_few is the value of every entry in this case. saved_order assumes that both runs end normally, saved_order_first the condition of C164 instead. Positions as in C133.
- **C163 When a run ends normally, in terms of its input files.** Step by step: depths are defined for positions in range; the choice of casts is all casts in the ellipse (C11); the region data by C44, empty if the first cast has no usable level; the interpolation by C78, for the columns of the casts; the levels by C133, with an error exactly if the noise variance is zero; the outer loop by C52. A concrete run with a cast without pressures meets the conditions. *Proved*: `run_ends_iff`, `run_ends_iff_front`, `front_ends`. Positions as in C133. run_ends_iff_front is the case with MAP_USE_SAF. noise_unique shows that the noise variance of a list of casts is determined.
- **C164 The order of the casts can decide whether a run fails.** All conditions of C163 but the one on the first cast are symmetric in the casts; the noise variance by C161. The concrete case: seven casts, one without any pressure at the end or at the beginning. *Proved*: `order_ends`, `order_decides`. order_decides is the concrete case.
- **C165 A run over reference data without defects ends normally.** Step by step as for C163, but with what is known of the chosen casts only: they are casts of the ellipse at different positions of the list, at least six of them if there are (C09, C10). The noise variance of casts of different salinities at different places is not zero, with or without the outliers; at a covered level no contribution is lost before the outliers are dropped, so it is mapped. A concrete run with seven casts, six of them used, meets the conditions. *Proved*: `clean_run_ends`. The conditions are sufficient; C163 has the necessary and sufficient ones for runs without a draw and MAP_USE_PV.
- **C166 The configuration after any changes.** The dictionary is modelled as the list of its entries in the order of insertion, with the 33 entries of the source. The specification has its own table of defaults. By induction over the assignments. *Proved*: `settings_read`, `settings_mapping`, `settings_complete`, `settings_misspelt`, `settings_unused`, `settings_order`. The list of names read is part of the model, with the lines of the code.
- **C167 Runs with the configuration as it is loaded.** No change to another name reaches the thirteen numbers (C166), so they are the defaults; these meet all conditions of C163 and C165 on the configuration. A concrete run with another directory and a misspelt name. *Proved*: `default_numbers`, `default_run_ends_iff`, `default_clean_run_ends`. Decimal defaults are the exact numbers written in the source.
- **C168 Which exception a run ends with.** Each reason for which a condition of C163 fails gives its exception before the level loop or in it. A run in which the profiles before can be processed is compared with one that stops giving values there: up to that profile, or that level of it, they do the same. A profile for which the data do not suffice has one of the reasons. Concrete runs with no casts, a cast without pressures first, casts out of reach, six casts at one place, and two casts. *Proved*: `run_fails_iff`, `run_fails_iff_front`, `front_nothing`, `fail_nothing`, `fail_first`, `fail_reach`, `fail_noise`, `fail_name`. run_fails_iff_front is the case with MAP_USE_SAF. The fail_ theorems are concrete runs with each of the four exceptions.
- **C169 The value at a level does not depend on the other levels of the profile.** The choice of casts and their columns depend only on place, date and deepest pressure. The interpolation at a level is determined by the level and the stations (C38 to C40), so nothing is carried over from other levels. The rest of the level loop reads only this row. A concrete pair of runs. *Proved*: `level_alone`, `more_same`. more_same is a concrete pair of runs in which a level has another number and salinity and other levels above it.
- **C170 When the covariance of the observations is symmetric.** Entries are a horizontal factor times a vertical one (C24), both positive. Within a level the matrix is the horizontal factor, which is symmetric unless the vorticity vanishes at some profiles only. The exponential is injective, and a table with ascending places has one value at each place. One case on each side. *Proved*: `build_cov_symmetric_iff`. C25 is what a user would expect; this is the exact condition.
- **C171 What MAP_P_EXCLUDE does.** Nothing before the level loop reads the limit; a level above it is skipped, and the others do the same as before. So no computation fails that did not fail before, and C52 gives the two files. A concrete run on each side. *Proved*: `raise_exclude`, `exclude_some`, `exclude_all`. The exclude_ theorems are a concrete run with a limit between its levels and one below all of them.
- **C172 Settings without effect.** Induction over the levels and profiles: two runs with the same computation per profile and other recorded settings keep all but the settings equal, and the recorded settings are never read. Then the computation per profile is the same: without potential vorticity its terms in the ellipse, the two correlations and the covariance vanish, and the number of casts in the ellipse, at most that in reach, is compared only with MAX_CASTS. *Proved*: `idle_settings`, `record_no_effect`, `idle_seven`. record_no_effect is the part about the recorded settings. idle_seven is a concrete run with seven casts in reach.
- **C173 How large a saved mapping error can be.** The residuals at the casts are the noise times the inverse covariance applied to the deviations from the estimated mean, so they sum to zero, and positive semi-definiteness bounds their squares. The mean squared error of the best weights is at most that of a single cast and, by Cauchy-Schwarz, at least the noise over the number of casts. Then C133 and C92 for the saved entries, and the choice has at most MAX_CASTS casts. *Proved*: `saved_error_bounds`, `two_stage_bounds`, `residual_variance`, `world_error`. world_error is a concrete run over two profiles.
- **C174 When MAP_USE_SAF changes nothing.** Such a profile has class 0, every cast then counts as class 0, and indexing with all positions gives the same arrays, except that depths behind those of the casts are dropped. No level reads them, because the interpolated rows are as long as the number of casts. The columns are not empty, because casts without data are dropped before. Then as C172. *Proved*: `idle_saf`, `applySaf_noSide`, `idle_saf_north`, `noSide_shallow`, `noSide_between`. idle_saf_north is a concrete run over two profiles in which one of the chosen casts has no data. noSide_shallow and noSide_between are southern profiles that the criterion says nothing about.
- **C175 Which levels get a value, and that wider settings lose none.** Modelled: the whole run (Model/Update, Model/Profile, Model/Level). Proved: a saved signal variance is traced to the level and to the number of contributing casts (level_ends of C163). A cast in the ellipse stays in it with larger scales. For MAP_P_DELTA, the usable levels of a cast listed downwards with the smaller limit are a prefix of those with the larger one, so each crossing stays and the nearest one is at most as far away. *Proved*: `mapped_iff`, `mapped_iff_front`, `wider_keeps`, `wider_keeps_front`, `raise_delta`, `wide_kept`, `broad_kept`, `front_mapped`. wide_kept and broad_kept are concrete pairs of runs.
- **C176 When random numbers have no influence.** Modelled: the whole run (Model/Update, Model/Profile), the random numbers being a parameter. Proved: the potential vorticity only adds to the distance, so the ellipse holds at most the casts in reach; if these are not more than MAX_CASTS, find_besthist returns them all before it draws a number. Then as C172. *Proved*: `chance_idle`, `chance_same`, `chance_seven`, `chance_vorticity`. chance_seven is a run that ends normally, chance_vorticity one that may use the potential vorticity.
- **C177 Which casts the random numbers choose.** Modelled: find_besthist with the draws as a parameter (Model/Finders). Proved: np.round characterised exactly, the positions of the casts in the ellipse as the number of casts in it before, then the lengths of the intervals of draws. *Proved*: `draws_pick`, `any_may_be_chosen`, `pick_chances`, `far_may_be_chosen`. far_may_be_chosen is a concrete case with seven casts, five of which are asked for.
- **C178 The closest third is always chosen.** Modelled: find_besthist (Model/Finders). Proved: if the cast were left out, all casts chosen by the large scales (at least a third of MAX_CASTS, all different, all in the ellipse) would be at least as close (C12, C13). *Proved*: `closest_third_chosen`, `second_chosen`. second_chosen is a concrete case with seven casts, five of which are asked for.
- **C179 A larger ellipse loses no cast.** Modelled: find_besthist and find_ellipse (Model/Finders). Proved: each term of the ellipse falls with its scale, and the term of the potential vorticity is not negative; then C10 and C11. *Proved*: `larger_keeps`, `larger_five`. larger_five is a concrete case in which casts are chosen at random first.
- **C180 A saved value needs more than five casts in reach.** Modelled: the whole run (Model/Update, Model/Profile, Model/Level). Proved: the casts used at a level are different casts in the ellipse of longitude and latitude, also after a random choice, the term of the potential vorticity and the frontal criterion; their number is at most the number of casts in reach that meet the level. *Proved*: `value_needs_casts`, `level_needs_reach`, `six_of_seven`. six_of_seven is a concrete run in which six of seven casts are chosen, partly at random.
- **C181 The constraints on the casts give no level a value.** Modelled: the whole run. Proved from C180 (necessary condition for all settings) and C175 (sufficient without the constraints): both are about the same casts in reach. *Proved*: `unconstrained_keeps`, `six_kept`. six_kept is a concrete pair of runs, one of which chooses six of seven casts.
- **C182 The selected historical points of a run.** Modelled: the whole run. Proved with an invariant of the level loop and of the profile loop from C49 (one call), then carried over the sorting, which is a permutation. *Proved*: `selected_of_float`, `selected_of_run`, `seven_selected`. selected_of_run is the same for any computation of the levels. seven_selected is a concrete run.
- **C183 Selected points lie in reach of their profile.** Modelled: the whole run. Proved from C182 by following the positions back through the outliers, the casts of the level, the frontal criterion, the columns kept and the choice of casts. *Proved*: `selected_in_reach`, `seven_in_reach`. seven_in_reach is a concrete run over two profiles, one of them without a position.
