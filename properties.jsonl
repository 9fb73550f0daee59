{"id": "C01", "title": "sorter assigns every point to its interval", "statement": "sorter(boundaries, points) returns one integer per point; read in ascending order of the points, the k-th integer is the number of boundaries that are <= the k-th smallest point, minus one. So for ascending boundaries it is the index of the interval the point lies in: -1 before the first boundary, len(boundaries)-1 at or after the last.", "quantifier": "all finite arrays of boundaries and of points, any lengths, with ties", "why_tests_cant": "The interval of each point depends on stable ordering of ties between boundaries and points; tests hold a few literal arrays.", "anchors": ["pyowc/utilities.py:sorter"]}
{"id": "C02", "title": "wrap_longitude never changes a position and is idempotent", "statement": "wrap_longitude returns an array of the same length, every entry equal to the input entry modulo 360. For inputs in [-360,360): if any longitude lies in the 40 degrees west of Greenwich (written as 320 to 360 or as -40 to 0) all results are in (40,400], else all are in [0,320). For inputs not below -360, applying it twice gives the same as applying it once (false below).", "quantifier": "all longitude arrays", "why_tests_cant": "Claims about every array, including mixtures of negative, 0-40 and 320-360 values.", "anchors": ["pyowc/utilities.py:wrap_longitude"]}
{"id": "C03", "title": "Longitude differences across Greenwich survive wrapping", "statement": "For any set of longitudes inside an arc of at most 40 degrees crossing 0/360, after wrap_longitude the numeric difference between any two results is their signed difference along the arc, whenever some point of the set lies at or above 320; so distances near Greenwich are computed the short way round.", "quantifier": "all arrays of longitudes contained in an arc [a, a+80] with a in [320, 360)", "why_tests_cant": "Needs all positions and all combinations of points on both sides of the meridian.", "anchors": ["pyowc/utilities.py:wrap_longitude", "pyowc/calibration.py:update_salinity_mapping"]}
{"id": "C04", "title": "cal2dec is strictly increasing over the calendar year", "statement": "For valid month/day/hour/minute of a non-leap year, cal2dec is in [0,365), and an earlier date-time always gives a strictly smaller value; the value is the exact number of days since 1 January 00:00.", "quantifier": "all valid (month, day, hour, minute) pairs", "why_tests_cant": "525600 minutes squared pairs; tests sample a few.", "anchors": ["pyowc/utilities.py:cal2dec"]}
{"id": "C05", "title": "cal2dec rejects out-of-range months and days with ValueError only", "statement": "cal2dec never fails with anything but ValueError for integer arguments: month index >= 13 or < -13 raises ValueError, a result above 366 raises ValueError, everything else returns a number.", "quantifier": "all integer month/day/hour/minute arguments", "why_tests_cant": "Universal over integers including negative indices.", "anchors": ["pyowc/utilities.py:cal2dec"]}
{"id": "C06", "title": "change_dates is element-wise and never fails", "statement": "change_dates returns one number per input date; the i-th result depends only on the i-th date; a malformed date yields 0 and never disturbs or aborts the others.", "quantifier": "all arrays of dates (as their decimal strings)", "why_tests_cant": "Independence of every element from every other is a relational claim over all arrays.", "anchors": ["pyowc/utilities.py:change_dates"]}
{"id": "C07", "title": "change_dates preserves chronological order", "statement": "For well-formed 14-digit (YYYYMMDDhhmmss) non-leap-day dates, the decimal year produced satisfies year <= result < year+1 and an earlier date (to the minute) yields a strictly smaller result.", "quantifier": "all pairs of valid date strings", "why_tests_cant": "Quantifies over pairs of dates.", "anchors": ["pyowc/utilities.py:change_dates", "pyowc/utilities.py:cal2dec"]}
{"id": "C08", "title": "potential_vorticity is never zero", "statement": "potential_vorticity(lat, z) never returns 0 for a non-zero depth, so a later division by pv1^2+pv2^2 can never be 0/0; its sign is the sign of lat*z for |lat|<180, lat != 0, and it is antisymmetric in latitude away from the equator.", "quantifier": "all latitudes and non-zero depths", "why_tests_cant": "Real-valued input domain.", "anchors": ["pyowc/utilities.py:potential_vorticity", "pyowc/core/stats.py:covar_xyt_pv", "pyowc/core/finders.py:find_ellipse"]}
{"id": "C09", "title": "spatial_correlation is a generalised squared distance", "statement": "spatial_correlation is >= 0, symmetric in its two points, zero for coincident points, and (without PV) zero only for coincident points; it decreases when the scales grow.", "quantifier": "all pairs of points and all non-zero scales", "why_tests_cant": "Real-valued domain.", "anchors": ["pyowc/utilities.py:spatial_correlation"]}
{"id": "C10", "title": "Only historical casts inside the ellipse are ever selected", "statement": "For max_casts >= 1, every index returned by find_besthist designates a historical cast with non-missing longitude/latitude whose ellipse value is < 1 (computed the same way for the returned index as at selection).", "quantifier": "all historical data sets, float positions, scales, max_casts and random streams", "why_tests_cant": "Depends on random draws; every stream must be covered.", "anchors": ["pyowc/core/finders.py:find_besthist", "pyowc/core/finders.py:find_ellipse"]}
{"id": "C11", "title": "find_besthist returns all candidates when there are few", "statement": "If the number of casts in the ellipse is at most max_casts, find_besthist returns exactly the indices of these casts, in ascending order, with no random choice.", "quantifier": "all historical data sets, float positions and scales", "why_tests_cant": "Exact set equality for every data set.", "anchors": ["pyowc/core/finders.py:find_besthist"]}
{"id": "C12", "title": "find_besthist returns exactly max_casts distinct casts when there are many", "statement": "If more casts than max_casts lie in the ellipse, max_casts is 3 or at least 5, and no depth is 0 in case the potential vorticity is used, the result has exactly max_casts indices, all distinct, whatever numbers the random generator draws.", "quantifier": "all data sets, all random streams in [0,1), all max_casts = 3 or >= 5", "why_tests_cant": "The size balance between the three parts must hold for every collision pattern in the random draw.", "anchors": ["pyowc/core/finders.py:find_besthist"]}
{"id": "C13", "title": "find_besthist fills the remaining two thirds by closeness", "statement": "Of the non-random part of the result, every chosen cast of the large-scale third is at least as close (large-scale scaled distance in space, time and, if asked for, potential vorticity) as any ellipse cast not chosen by then, and every chosen cast of the small-scale third is at least as close (small scales) as any cast left unselected. (False of the code with the potential vorticity constraint on: a cast over shallower water is ranked closer than one with exactly the float's potential vorticity.)", "quantifier": "all data sets and random streams", "why_tests_cant": "Optimality over all unselected casts.", "anchors": ["pyowc/core/finders.py:find_besthist", "pyowc/utilities.py:spatial_correlation"]}
{"id": "C14", "title": "find_besthist for small max_casts", "statement": "Whatever max_casts >= 1 the user configures, find_besthist returns at most max_casts casts. (False for the code as written: max_casts=1 returns n-1 casts and max_casts=2 or 4 raises ValueError.)", "quantifier": "all max_casts >= 1", "why_tests_cant": "Tests only use large max_casts.", "anchors": ["pyowc/core/finders.py:find_besthist", "pyowc/configuration.py:load"]}
{"id": "C15", "title": "find_25boxes returns the box containing the float and its neighbours", "statement": "For a float at longitude in [-10,370], the 25 rows returned by find_25boxes are the rows of the box table for the 5x5 block of 10x10 degree cells around the cell containing the point 0.01 degree north-east of the float, longitude taken modulo 360 and latitude clamped at the poles. So the first box contains the float unless the float is within 0.01 degree of the eastern or northern edge of its cell.", "quantifier": "all float positions", "why_tests_cant": "Real-valued positions including cell edges, Greenwich and the poles.", "anchors": ["pyowc/core/finders.py:find_25boxes", "pyowc/core/finders.py:nearest_neighbour"]}
{"id": "C16", "title": "find_25boxes always indexes the box table within range", "statement": "For every finite float position in the accepted range find_25boxes returns 25 rows of the supplied WMO box table and never fails with an index error; for a NaN position it returns 25 rows of NaN.", "quantifier": "all float positions, including NaN", "why_tests_cant": "Boundaries of a continuous domain.", "anchors": ["pyowc/core/finders.py:find_25boxes"]}
{"id": "C17", "title": "find_25boxes never returns the same box twice", "statement": "The 25 boxes are pairwise distinct, so no historical cast is counted twice, exactly for floats between 70S and 70N (up to the 0.01 degree shift). (False nearer to the poles.)", "quantifier": "all float positions", "why_tests_cant": "Needs all latitudes.", "anchors": ["pyowc/core/finders.py:find_25boxes"]}
{"id": "C18", "title": "find_10thetas respects the user's temperature and pressure limits", "statement": "find_10thetas uses only cells that are mapped and within the user's temperature and pressure limits: every level number returned refers to such a cell, and with an upper limit not below the lower limit every theta level and pressure level returned lies within the limits. (The theta levels can lie in an excluded middle band, use_theta_lt < use_theta_gt.)", "quantifier": "all float profiles, all combinations of limits", "why_tests_cant": "All combinations of bounds on all profiles.", "anchors": ["pyowc/core/finders.py:find_10thetas"]}
{"id": "C19", "title": "find_10thetas picks the levels of least salinity variance", "statement": "The theta levels chosen by find_10thetas are distinct, at most ten, in order of increasing salinity variance; the variance of a level is the sample variance of the salinities on it, and is missing if fewer than two profiles or less than the fraction use_percent_gt of the best-covered level have one; no level left out has a smaller variance, and fewer than ten are chosen only if no other level has a variance.", "quantifier": "all float profiles", "why_tests_cant": "Optimality over all levels.", "anchors": ["pyowc/core/finders.py:find_10thetas"]}
{"id": "C20", "title": "find_10thetas finds in each profile the level nearest to the chosen theta", "statement": "For each chosen theta level and each profile, the level number returned is the first usable cell whose potential temperature is nearest to the chosen theta; a number is returned exactly when the theta is strictly between the least and the greatest usable temperature of the profile.", "quantifier": "all float profiles", "why_tests_cant": "Nearest over all levels of all profiles.", "anchors": ["pyowc/core/finders.py:find_10thetas"]}
{"id": "C21", "title": "signal_variance is a variance", "statement": "signal_variance is the population variance of the non-missing values: >= 0, zero iff all non-missing values are equal, unchanged by a constant shift, scaled by c^2, unaffected by missing values and by order; it raises RuntimeError exactly when there is no non-missing value.", "quantifier": "all arrays of salinities with missing values anywhere", "why_tests_cant": "Universal algebraic laws.", "anchors": ["pyowc/core/stats.py:signal_variance"]}
{"id": "C22", "title": "noise_variance is well defined and bounded", "statement": "noise_variance returns sum((sal_i - sal_nearest(i))^2)/(2n), where nearest(i) is the nearest cast at a different position; it is >= 0, zero if all casts coincide or all salinities agree, invariant to a constant shift of salinity, and at most (max-min)^2/2.", "quantifier": "all salinity/position arrays", "why_tests_cant": "All arrays, ties and coincident casts.", "anchors": ["pyowc/core/stats.py:noise_variance"]}
{"id": "C23", "title": "covar_xyt_pv is a correlation matrix", "statement": "The entry of covar_xyt_pv is the exponential of minus the squared scaled distance of the two points (space, time if the time scale is not zero, and if asked for the relative difference of potential vorticity), so it depends only on the two points. covar_xyt_pv(p,p) is symmetric, has unit diagonal, has all entries in (0,1] and is positive semi-definite (with and without the PV term).", "quantifier": "all point sets, all non-zero scales", "why_tests_cant": "Positive semi-definiteness is a claim about all quadratic forms of every size.", "anchors": ["pyowc/core/stats.py:covar_xyt_pv"]}
{"id": "C24", "title": "build_cov produces entries in (0,1] with unit diagonal", "statement": "Each entry of build_cov is the product of the horizontal correlation of the two profiles and a vertical correlation exp(-(difference of potential temperature)^2/scale^2) of the two levels, 1 if a temperature is missing; the vertical scale is read from the tables by linear interpolation at the temperature of the first level (the 'down' table if the second level is deeper) and lies between 1 and 6. The entries lie in (0,1] and are 1 on the diagonal. The call raises ValueError exactly if a profile of at least two levels has a temperature outside [-2,30].", "quantifier": "all profiles, coordinates and scales", "why_tests_cant": "All inputs including the table edges.", "anchors": ["pyowc/core/stats.py:build_cov", "pyowc/core/stats.py:covarxy_pv"]}
{"id": "C25", "title": "build_cov is symmetric", "statement": "build_cov returns a symmetric matrix, as required of a covariance. (False of the code: witness.)", "quantifier": "all inputs", "why_tests_cant": "Needs a witness or a proof over all inputs.", "anchors": ["pyowc/core/stats.py:build_cov"]}
{"id": "C26", "title": "brk_pt_fit returns the weighted least-squares piecewise-linear fit", "statement": "For ascending x and ascending break points not left of the first x, when the points of non-zero weight determine a broken line with these break points, the coefficients returned are the start value and slopes of a continuous piecewise-linear function that minimises the weighted sum of squared residuals over all continuous piecewise-linear functions with the given break points, and the residual returned is the data minus this function.", "quantifier": "all ascending x, data, non-negative weights and ascending break points", "why_tests_cant": "Optimality over all competing coefficient vectors.", "anchors": ["pyowc/core/stats.py:brk_pt_fit"]}
{"id": "C27", "title": "brk_pt_fit reproduces exact piecewise-linear data", "statement": "For ascending x and break points, if the data lie exactly on a continuous piecewise-linear function with these break points and the points determine it, the fit returns this function's start value and slopes and zero residual. (False for x in another order.)", "quantifier": "all ascending x, piecewise-linear data, weights and break points", "why_tests_cant": "Universal.", "anchors": ["pyowc/core/stats.py:brk_pt_fit", "pyowc/utilities.py:sorter"]}
{"id": "C28", "title": "brk_pt_fit degenerate input", "statement": "If the x and y lengths differ or the points do not determine a broken line with these break points, brk_pt_fit returns zero coefficients and the data themselves as residual; with consistent weights it raises only if there are no points at all.", "quantifier": "all data", "why_tests_cant": "All degenerate inputs.", "anchors": ["pyowc/core/stats.py:brk_pt_fit"]}
{"id": "C29", "title": "The optimiser's break points are always ordered and interior", "statement": "Whatever real vector the non-linear optimiser proposes, the break points used to evaluate the residual are strictly increasing and, with more than three distinct profiles, strictly between the second and the last but one profile. With at most three distinct profiles all proposals give the same break points, at or beyond the last profile.", "quantifier": "all optimiser states", "why_tests_cant": "The optimiser may propose any vector.", "anchors": ["pyowc/core/stats.py:nlbpfun"]}
{"id": "C30", "title": "fit_cond validates its keyword arguments", "statement": "When there is at least one good observation, fit_cond raises ValueError for an odd number of extra arguments and for a parameter name that is not a text or not known (after usable pairs); recognised names in any case and order set the corresponding option, the last one winning. Without good observations any arguments are accepted.", "quantifier": "all argument lists", "why_tests_cant": "All lists of any length.", "anchors": ["pyowc/core/stats.py:fit_cond"]}
{"id": "C31", "title": "fit_cond effective degrees of freedom lie between 1 and the number of points", "statement": "For a correlation matrix with entries in [0,1] and unit diagonal the effective number of degrees of freedom is in [1, n].", "quantifier": "all correlation matrices", "why_tests_cant": "All matrices of every size.", "anchors": ["pyowc/core/stats.py:fit_cond"]}
{"id": "C32", "title": "fit_cond chooses the model with the smallest AIC, fewest breaks on ties", "statement": "With 'max_no_breaks' k and free break points, the model used is an offset or a broken line with at most k and at most (ndf-5)/2 break points; its small-sample Akaike criterion is the least of all these, and smaller than that of every one with fewer break points, whatever break points the optimiser finds.", "quantifier": "all data and optimiser results", "why_tests_cant": "Optimality over all tried models for any optimiser outcome.", "anchors": ["pyowc/core/stats.py:fit_cond"]}
{"id": "C33", "title": "fit_cond keeps x and y paired", "statement": "fit_cond's result does not depend on the order in which the observations are listed. (False: x is sorted without permuting y and the errors.)", "quantifier": "all permutations of all inputs", "why_tests_cant": "Relational claim over permutations.", "anchors": ["pyowc/core/stats.py:fit_cond"]}
{"id": "C34", "title": "Objective mapping is well posed", "statement": "For at least one cast, non-negative signal and positive noise variance, map_data_grid never meets a singular matrix or a zero denominator, and both error estimates are square roots of non-negative numbers. The squared error at the float is at least the variance left by simple mapping, at most signal + (signal + noise) - 2 signal rho for the correlation rho of the float with any one cast, and so at most 2 signal + noise. Without casts the call fails.", "quantifier": "all casts, positions, scales, variances > 0", "why_tests_cant": "Invertibility and positivity for every data set.", "anchors": ["pyowc/data/wrangling.py:map_data_grid", "pyowc/core/stats.py:covar_xyt_pv"]}
{"id": "C35", "title": "Objective mapping reproduces constants and is equivariant", "statement": "If all historical salinities equal c the mapped salinity is c; adding c to all salinities adds c to the result; scaling scales; error estimates do not depend on the salinities.", "quantifier": "all data sets", "why_tests_cant": "Algebraic laws over all data sets.", "anchors": ["pyowc/data/wrangling.py:map_data_grid"]}
{"id": "C36", "title": "Objective mapping does not depend on cast order", "statement": "Permuting the historical casts leaves mapped salinity and its error unchanged and permutes the fields at data locations.", "quantifier": "all permutations of all data sets", "why_tests_cant": "Relational over permutations.", "anchors": ["pyowc/data/wrangling.py:map_data_grid"]}
{"id": "C37", "title": "Noise-free mapping interpolates", "statement": "With zero noise variance and invertible covariance the mapped field at the data locations equals the data and its error is zero (away from the mean-estimation term, which vanishes too).", "quantifier": "all data sets", "why_tests_cant": "Universal.", "anchors": ["pyowc/data/wrangling.py:map_data_grid"]}
{"id": "C38", "title": "interp_climatology interpolates between two bracketing levels", "statement": "Every non-missing salinity/pressure pair returned is, with one common weight in [0,1], the linear interpolation between two consecutive good levels of that station whose temperatures bracket the float temperature.", "quantifier": "all climatologies and float profiles", "why_tests_cant": "All profiles including inversions, gaps and exact hits.", "anchors": ["pyowc/data/wrangling.py:interp_climatology", "pyowc/data/wrangling.py:calculate_interpolation_weights", "pyowc/data/wrangling.py:interpolate_values"]}
{"id": "C39", "title": "interp_climatology chooses the crossing nearest in pressure", "statement": "Among all crossings of the float temperature in a station, the pair returned is the one whose interpolated pressure is nearest to the float pressure (first on ties).", "quantifier": "all climatologies and float profiles", "why_tests_cant": "Optimality over all crossings.", "anchors": ["pyowc/data/wrangling.py:interp_climatology"]}
{"id": "C40", "title": "interp_climatology gives missing exactly when there is no crossing", "statement": "When interp_climatology returns, the entry for a float level and a station is missing iff the float level is bad or the station has no crossing of its temperature between two consecutive good levels of different temperature; entries of one station depend only on that station and that float level; shape mismatch yields all-missing.", "quantifier": "all climatologies and float profiles", "why_tests_cant": "Exact characterisation over all inputs.", "anchors": ["pyowc/data/wrangling.py:interp_climatology", "pyowc/data/wrangling.py:find_sign_changes_in_columns"]}
{"id": "C41", "title": "Gaps in climatology profiles do not matter", "statement": "Inserting or removing levels with a non-finite value in a climatology station does not change the interpolated result.", "quantifier": "all climatologies", "why_tests_cant": "Invariance over all gap patterns.", "anchors": ["pyowc/data/wrangling.py:_get_cleaned_grid_data", "pyowc/data/wrangling.py:_get_finite_element_mask"]}
{"id": "C42", "title": "get_topo_grid returns the requested window of the bathymetry", "statement": "The elevation at position (i,j) of the returned grid is the file element at the returned latitude lts[i] and longitude lgs[j] modulo 360, for windows on either side of and across Greenwich, and the window covers the requested limits. Limits exchanged by at least a quarter of a degree are a ValueError.", "quantifier": "all files of 2160 x 4320 values and all windows between -360 and 359.9 degrees east, or 0 and 719.9, and between -89.9 and 90 degrees north", "why_tests_cant": "All windows including wrapped ones.", "anchors": ["pyowc/data/fetchers.py:get_topo_grid"]}
{"id": "C43", "title": "get_region_hist_locations and get_region_data agree on cast numbering", "statement": "The k-th entry of the location arrays and the cast with running number k in get_region_data are the same cast of the same box and file type; get_region_data(index) therefore returns precisely the casts chosen by find_besthist.", "quantifier": "all box lists, reference data and index sets", "why_tests_cant": "Alignment of two separately coded traversals for every data layout.", "anchors": ["pyowc/data/fetchers.py:get_region_hist_locations", "pyowc/data/fetchers.py:get_region_data", "pyowc/data/fetchers.py:get_data"]}
{"id": "C44", "title": "get_region_data keeps the columns of one cast together", "statement": "If the first chosen cast has a usable level, then column j of salinity, potential temperature and pressure and entry j of latitude, longitude and date all come from the same cast, in ascending file order; a column holds the levels of known pressure down to the limit, those with an incomplete triple blanked, padded with missing values; casts without any complete level are removed from all six outputs. If the first chosen cast has no usable level the result is empty, and without a chosen cast there is an error.", "quantifier": "all reference data with files of at least two levels", "why_tests_cant": "Alignment for every data layout and padding pattern.", "anchors": ["pyowc/data/fetchers.py:get_region_data", "pyowc/data/fetchers.py:_sync_nans"]}
{"id": "C45", "title": "The depth used for a cast is the depth of that cast", "statement": "In the mapping loop the bathymetric depth attached to a historical cast is the depth at that cast's position. (False of the code when find_besthist returns unsorted indices or an all-missing cast is dropped.)", "quantifier": "all data and random streams", "why_tests_cant": "Alignment between two orders.", "anchors": ["pyowc/calibration.py:update_salinity_mapping", "pyowc/data/fetchers.py:get_region_data", "pyowc/core/finders.py:find_besthist"]}
{"id": "C46", "title": "The float under test is never compared with itself", "statement": "get_data for Argo reference data never returns a profile whose source name contains the name of the float being analysed, and keeps all the others in order.", "quantifier": "all reference files and float names", "why_tests_cant": "All files.", "anchors": ["pyowc/data/fetchers.py:get_data", "pyowc/data/fetchers.py:read_mat_argo"]}
{"id": "C47", "title": "Reading reference data is repeatable", "statement": "Every call of get_region_hist_locations and get_region_data returns what it would return if it read the files itself, although files are cached and cached arrays may be edited in place; in particular a call made twice returns the same.", "quantifier": "all sequences of calls, arguments and cache evictions, with unchanged files", "why_tests_cant": "History-dependence through a cache.", "anchors": ["pyowc/data/fetchers.py:get_region_data", "pyowc/data/fetchers.py:read_mat_ctd"]}
{"id": "C48", "title": "The SAF constraint keeps only casts of the float's own class", "statement": "frontal_constraint_saf returns a sub-sequence of the input casts, the same in all arrays; north of 30S it returns the input; south of it, if the float lies on one side of the front (temperature at 300 dbar above 5 or below 3 degrees, or between them decided by the envelopes of the typical profiles), exactly the casts on the same side remain; if the float is undecided all casts remain. The mapping uses the result only if more than five casts remain.", "quantifier": "all float profiles with ascending pressures and all historical data with ascending pressures (sub-sequence and northern case: all data)", "why_tests_cant": "All profiles.", "anchors": ["pyowc/data/fetchers.py:frontal_constraint_saf"]}
{"id": "C49", "title": "selected_historical_points keeps a well-separated covering set", "statement": "The selected points are pairwise more than 1/60 degree apart in longitude or latitude, every historical point offered is within 1/60 degree of a selected one, and points once selected are never removed.", "quantifier": "all sequences of calls", "why_tests_cant": "Invariant over a history of calls.", "anchors": ["pyowc/helper.py:selected_historical_points"]}
{"id": "C50", "title": "The outlier test removes exactly the outliers, and few", "statement": "At every level exactly the casts whose salinity is more than three standard deviations from the mean are removed, from all arrays alike; these are fewer than one ninth of the casts, and with at most ten casts there are none.", "quantifier": "all salinity arrays", "why_tests_cant": "A Chebyshev bound over all arrays.", "anchors": ["pyowc/helper.py:remove_statical_outliers"]}
{"id": "C51", "title": "process_profile_hist_variables keeps exactly the comparable casts", "statement": "The casts kept are those with a non-missing interpolated salinity whose interpolated pressure is within delta of the float pressure, in the original order, with all six arrays aligned.", "quantifier": "all inputs with one entry per cast in every array", "why_tests_cant": "Universal alignment.", "anchors": ["pyowc/helper.py:process_profile_hist_variables"]}
{"id": "C52", "title": "Sorting the mapped output by profile number keeps data with its profile", "statement": "After update_salinity_mapping without a mapped file, column i of every saved matrix and entry i of every saved setting belong to the i-th saved profile number. (False unless the profile numbers in the source are ascending: the matrices are permuted twice, the other arrays once.)", "quantifier": "all profile numberings and all results of the computations", "why_tests_cant": "All permutations.", "anchors": ["pyowc/calibration.py:update_salinity_mapping", "pyowc/helper.py:sort_numpy_array"]}
{"id": "C53", "title": "Mapped salinities are in range or missing", "statement": "Every mapped salinity saved is in [30,40] or missing.", "quantifier": "all inputs", "why_tests_cant": "Any number the mapping could produce.", "anchors": ["pyowc/calibration.py:update_salinity_mapping"]}
{"id": "C54", "title": "A rerun without new profiles changes nothing", "statement": "If the mapped file already holds all profiles and levels of the float source, update_salinity_mapping computes nothing, whatever the configuration, and saves the same content, apart from the entry profile_index.", "quantifier": "all first runs and all histories of later runs", "why_tests_cant": "History property.", "anchors": ["pyowc/calibration.py:update_salinity_mapping", "pyowc/helper.py:load_varibales_from_file"]}
{"id": "C55", "title": "A failed run leaves the previous mapping untouched", "statement": "The mapped file is written only after all profiles are processed: an exception or a crash before that leaves the mapped directory as it was. A crash while the file is being saved leaves a torn file in place of the previous one.", "quantifier": "all inputs and crash points", "why_tests_cant": "Crash points cannot be enumerated by tests.", "anchors": ["pyowc/calibration.py:update_salinity_mapping"]}
{"id": "C56", "title": "Calibration treats every calseries segment independently and skips segment 0", "statement": "In a completed calibration (calc_piecewisefit, no prescribed break points) every profile with 0 in calseries has only missing results, every other profile has a conductivity factor, and the results of a segment depend on the profiles and positions of that segment alone.", "quantifier": "all data, settings and conversions; all pairs of completed runs that agree on a segment", "why_tests_cant": "All partitions.", "anchors": ["pyowc/calibration.py:calc_piecewisefit"]}
{"id": "C57", "title": "Depths are looked up at the float's own positions", "statement": "calc_piecewisefit looks up the depth of each profile at its own position, all longitudes shifted by 0 or all by -360, in a window of the elevation file that reaches one degree beyond every position (at most to the poles) and holds the file's elevations.", "quantifier": "all floats with latitudes in [-90, 90] and longitudes all in [-180, 180], or in [1, 360] with one above 180; every interpolation method", "why_tests_cant": "All arrays.", "anchors": ["pyowc/calibration.py:calc_piecewisefit", "pyowc/plot/dashboard.py:plot_diagnostics"]}
{"id": "C58", "title": "set_calseries is idempotent", "statement": "Running set_calseries again without changing the source or the calseries file leaves the file as it was, if no profile number occurs twice.", "quantifier": "all sources and all calseries files (or none), every order np.argsort may give equal values", "why_tests_cant": "History property.", "anchors": ["pyowc/configuration.py:set_calseries"]}
{"id": "C59", "title": "set_calseries excludes exactly the profiles without good data", "statement": "After set_calseries the entry of a profile in the calseries file is 0 if the profile has no valid salinity, temperature or pressure, and what it was before (1 without a file) otherwise. (False when profile numbers are not ascending in the source, or when the file knows more profiles than the source.)", "quantifier": "all sources", "why_tests_cant": "All orderings of profiles.", "anchors": ["pyowc/configuration.py:set_calseries"]}
{"id": "C60", "title": "set_calseries accepts new profiles", "statement": "If the float has profiles that the existing calseries file does not know, set_calseries adds them. (False: it raises.)", "quantifier": "all sources and files", "why_tests_cant": "Every history where the float grows.", "anchors": ["pyowc/configuration.py:set_calseries"]}
{"id": "C61", "title": "Salinity on theta levels is drawn from exactly the levels within the limits", "statement": "The values drawn by sal_var_plot are computed from exactly the levels within the user's limits. (False: with a limit of pressure or a lower limit of temperature, one cell outside the limits drops two whole rows of all profiles.)", "quantifier": "all profiles and limits", "why_tests_cant": "All profiles.", "anchors": ["pyowc/plot/plots.py:sal_var_plot"]}
{"id": "C62", "title": "find_10thetas blanks exactly the unusable cells of the caller's arrays", "statement": "After find_10thetas the caller's pressure, salinity and temperature arrays are unchanged at usable cells (mapped and within the limits) and missing at all others.", "quantifier": "all arrays and all limits", "why_tests_cant": "The masks are applied one after the other with four ways to combine limits; tests use a few combinations.", "anchors": ["pyowc/core/finders.py:find_10thetas"]}
{"id": "C63", "title": "Salinity on a theta level is never extrapolated", "statement": "The salinity find_10thetas attributes to a profile on a theta level is a measured salinity of a usable cell, or lies between the salinities measured in two adjacent usable cells whose temperatures enclose the theta level.", "quantifier": "all profiles, with inversions, gaps and repeated temperatures", "why_tests_cant": "Depends on the choice of the neighbouring level in every possible temperature profile.", "anchors": ["pyowc/core/finders.py:find_10thetas"]}
{"id": "C64", "title": "Pressure levels returned by find_10thetas belong to the theta levels", "statement": "The k-th theta level returned by find_10thetas is the mean, over the profiles whose usable pressures enclose the k-th pressure level returned, of the temperature interpolated linearly at that pressure between the two adjacent usable cells.", "quantifier": "all data and limits for which find_10thetas returns", "why_tests_cant": "Any mismatch of indices between the two returned arrays would plot plausible but wrong levels; tests compare against one stored float.", "anchors": ["pyowc/core/finders.py:find_10thetas"]}
{"id": "C65", "title": "Objective mapping is the best linear unbiased estimate", "statement": "The salinity map_data_grid returns at the float (and at each cast) is a weighted sum of the cast salinities with weights of sum 1, and among all such weighted sums the one of least mean squared error for a field with the given signal variance and correlation function observed with the given noise variance; the returned error is the square root of that mean squared error.", "quantifier": "all cast sets, positions, scales, signal variance >= 0, noise variance > 0", "why_tests_cant": "An optimality claim ranges over all competing weight vectors for every data set.", "anchors": ["pyowc/data/wrangling.py:map_data_grid"]}
{"id": "C66", "title": "Objective mapping fails on noise-free duplicates and on constant salinity", "statement": "With zero noise variance, two casts at the same position, date and depth make map_data_grid raise LinAlgError; so do signal and noise variance both zero, which is what the code computes when all salinities on a level agree.", "quantifier": "all data sets of these kinds", "why_tests_cant": "Failure for a whole class of inputs.", "anchors": ["pyowc/data/wrangling.py:map_data_grid", "pyowc/calibration.py:update_salinity_mapping"]}
{"id": "C67", "title": "fit_cond without break points is a weighted mean or a weighted regression line", "statement": "When fit_cond with free break points returns, the result has no break points: it is either the mean weighted by the inverse error variances or the straight line of least weighted squares in the original units, and the line exactly when its Akaike criterion is smaller, which needs at least 5 degrees of freedom.", "quantifier": "all data with at least two distinct profiles, positive errors, correlation matrices and optimiser results", "why_tests_cant": "The code scales, fits and scales back; the claim is about the composition for all data.", "anchors": ["pyowc/core/stats.py:fit_cond"]}
{"id": "C68", "title": "fit_cond falls back to the weighted mean when there is little information", "statement": "With fewer than 5 degrees of freedom, or max_no_breaks -1, fit_cond always returns and the value for every profile is the mean weighted by the inverse error variances.", "quantifier": "all data, positive errors, correlation matrices", "why_tests_cant": "Holds for every data set.", "anchors": ["pyowc/core/stats.py:fit_cond"]}
{"id": "C69", "title": "When fit_cond without break points returns", "statement": "With max_no_breaks 0 fit_cond returns if there are fewer than 5 effective degrees of freedom or good observations at two different profiles; in all other cases it raises ValueError.", "quantifier": "all data, positive errors, correlation matrices", "why_tests_cant": "Absence of singular matrices for every data set.", "anchors": ["pyowc/core/stats.py:fit_cond"]}
{"id": "C70", "title": "fit_cond reproduces a constant", "statement": "If all good values are equal and fit_cond returns, it returns this value for every profile, with time derivative 0, whatever number of break points is allowed. It does return if there are good observations at two different profiles and they determine the broken lines that are allowed.", "quantifier": "all data of this kind, profile numbers, errors, correlation matrices, optimiser results", "why_tests_cant": "A class of inputs.", "anchors": ["pyowc/core/stats.py:fit_cond"]}
{"id": "C71", "title": "fit_cond reproduces a straight line", "statement": "If the good values lie on a straight line that is not constant, with at least two distinct profiles and 5 degrees of freedom, and the observations determine the broken lines that are allowed, fit_cond returns this line's start value and slope; the values for the profiles are on the line if the first profile has good data, else they are all off by the slope times the distance from the first profile to the first one with good data.", "quantifier": "all data of this kind, errors, correlation matrices, number of break points allowed, optimiser results", "why_tests_cant": "A class of inputs; the shift appears only when the first profile has no good data.", "anchors": ["pyowc/core/stats.py:fit_cond"]}
{"id": "C72", "title": "fit_cond does not depend on units", "statement": "If the values are not all equal and are transformed by v -> a v + b with a > 0, and the errors by e -> a e, the result of fit_cond (values, errors, derivatives and their errors, profile means and their scatter, coefficients, break points, or the error raised) is transformed accordingly.", "quantifier": "all data with not all values equal, options and optimiser results", "why_tests_cant": "Relational claim over all inputs.", "anchors": ["pyowc/core/stats.py:fit_cond"]}
{"id": "C73", "title": "fit_cond reports the standard error of the weighted mean", "statement": "For uncorrelated observations and an offset, the error fit_cond reports is one over the square root of the sum of the inverse error variances, for every profile.", "quantifier": "all data and positive errors", "why_tests_cant": "All data sets.", "anchors": ["pyowc/core/stats.py:fit_cond"]}
{"id": "C74", "title": "fit_cond reports the mean of each profile", "statement": "The profile mean returned for a profile is the error-weighted mean of the observations of this profile. (False when profiles have several observations: the window ends at the first observation of the profile and begins after the first one of the previous profile.)", "quantifier": "all data", "why_tests_cant": "Off-by-one windows give plausible values.", "anchors": ["pyowc/core/stats.py:fit_cond"]}
{"id": "C75", "title": "Break points found by the optimiser make fit_cond fail", "statement": "If the model of least Akaike criterion has break points found by the optimiser, fit_cond raises an error instead of returning it; in particular for data on a broken line that is not straight, when the optimiser finds the break points.", "quantifier": "all such data sets", "why_tests_cant": "A whole class of inputs fails.", "anchors": ["pyowc/core/stats.py:fit_cond"]}
{"id": "C76", "title": "Given break points are used only if max_no_breaks is their number", "statement": "fit_cond with given break points raises an error if max_no_breaks is not given, is smaller than the number of break points, or is greater while the degrees of freedom allow one more break point. If it is their number and the data determine a broken line with these break points, fit_cond returns the break points and, for the profiles, values of the broken line of least weighted squares.", "quantifier": "all break points, data, correlation matrices", "why_tests_cant": "All data sets and argument values.", "anchors": ["pyowc/core/stats.py:fit_cond", "pyowc/calibration.py:calc_piecewisefit"]}
{"id": "C77", "title": "interp_climatology reproduces a level of the climatology", "statement": "A float level with the temperature and pressure of a good level of a station with increasing pressures gets exactly the salinity and pressure of that level, if a neighbouring good level has another temperature.", "quantifier": "all climatologies and float profiles for which the call returns", "why_tests_cant": "A class of inputs; depends on which of several crossings is chosen.", "anchors": ["pyowc/data/wrangling.py:interp_climatology"]}
{"id": "C78", "title": "When interp_climatology raises", "statement": "interp_climatology raises (always ValueError) exactly when there are no stations; or there is a good climatology level and a good float level and either no station has two good levels, or the good levels (two or more) of some station all have exactly the temperature of a good float level.", "quantifier": "all climatologies of consistent shape and float profiles", "why_tests_cant": "An exact characterisation of failure over all inputs.", "anchors": ["pyowc/data/wrangling.py:interp_climatology", "pyowc/data/wrangling.py:_get_cleaned_grid_data"]}
{"id": "C79", "title": "The value stored at a level is a two-stage best linear estimate", "statement": "For a level that is mapped with a positive noise variance, update_salinity_mapping stores the sum of two best linear unbiased estimates at the float: of the salinities of the casts without outliers, for a field with the large scales, and of its residuals at the casts, for a field with the small scales and the variance of the residuals; the error is the root of the sum of the two mean squared errors; latitude differences are divided by the latitude scales and longitude differences by the longitude scales.", "quantifier": "all casts, float positions and configurations with usable scales and depths", "why_tests_cant": "Correctness of a chain of five functions, with arguments swapped twice on the way, for all data.", "anchors": ["pyowc/calibration.py:update_salinity_mapping", "pyowc/data/wrangling.py:map_data_grid", "pyowc/helper.py:remove_statical_outliers", "pyowc/core/stats.py:signal_variance", "pyowc/core/stats.py:noise_variance"]}
{"id": "C80", "title": "When the mapping of a level crashes", "statement": "With usable scales and depths the mapping of a level raises (always LinAlgError) exactly if, after removal of the outliers, all casts are at one position or each cast has the salinity of its nearest cast at another position; in particular if all salinities are equal.", "quantifier": "all casts and configurations", "why_tests_cant": "An exact characterisation of failure over all inputs.", "anchors": ["pyowc/calibration.py:update_salinity_mapping", "pyowc/data/wrangling.py:map_data_grid", "pyowc/core/stats.py:noise_variance"]}
{"id": "C81", "title": "The mapping of a level commutes with a change of unit", "statement": "Replacing the historical salinities s by a*s+b (a not 0) replaces the mapped salinity v by a*v+b, the error by |a| times the error and the variances by a^2 times the variances, selects the same casts and fails in the same cases.", "quantifier": "all casts, configurations, a and b", "why_tests_cant": "Relational claim through outlier test, variances and two mappings.", "anchors": ["pyowc/calibration.py:update_salinity_mapping"]}
{"id": "C82", "title": "When a level is skipped", "statement": "A float level is left unmapped exactly if the float has no salinity or no pressure there, or the pressure is below the exclusion pressure, or at most five casts are comparable; otherwise it is mapped from exactly the comparable casts.", "quantifier": "all float profiles, casts and interpolated values", "why_tests_cant": "All inputs.", "anchors": ["pyowc/calibration.py:update_salinity_mapping", "pyowc/helper.py:process_profile_hist_variables"]}
{"id": "C83", "title": "A reference file with a single cast is ignored", "statement": "get_region_hist_locations and get_region_data return what they would return if a CTD, bottle or Argo file holding a single cast did not exist; no error is reported.", "quantifier": "all reference data, boxes and selections", "why_tests_cant": "Relational claim over all file contents; the exception is swallowed.", "anchors": ["pyowc/data/fetchers.py:get_region_hist_locations", "pyowc/data/fetchers.py:get_region_data", "pyowc/data/fetchers.py:read_mat_ctd"]}
{"id": "C84", "title": "A reference file is read once per process", "statement": "After a reference file was read it is not read again as long as it is in the cache: a later call returns the old content even if the file has changed.", "quantifier": "all files, boxes and cache states", "why_tests_cant": "A claim about histories with changes of the file system.", "anchors": ["pyowc/data/fetchers.py:get_data", "pyowc/data/fetchers.py:read_mat_ctd", "pyowc/data/fetchers.py:read_mat_bottle", "pyowc/data/fetchers.py:read_mat_argo"]}
{"id": "C85", "title": "A chosen cast without usable levels costs only itself", "statement": "get_region_data returns every chosen cast that has a complete level, whatever the other chosen casts hold. (False: if the first chosen cast has no usable level, nothing is returned.)", "quantifier": "all reference data and selections", "why_tests_cant": "Depends on the contents of all other casts.", "anchors": ["pyowc/data/fetchers.py:get_region_data"]}
{"id": "C86", "title": "New profiles cannot be added to a mapped file", "statement": "If the mapped file exists and lacks a profile of the float source, update_salinity_mapping always raises and saves nothing. The exception is an AttributeError, or an IndexError if the file has more columns of mapped salinities than numbers of profiles.", "quantifier": "all mapped files and float sources", "why_tests_cant": "A whole class of inputs fails.", "anchors": ["pyowc/calibration.py:update_salinity_mapping", "pyowc/helper.py:load_varibales_from_file"]}
{"id": "C87", "title": "A run without any mapped level saves nothing", "statement": "If there is no mapped file and no level of any profile can be mapped, update_salinity_mapping always raises NameError and saves nothing.", "quantifier": "all float sources", "why_tests_cant": "A whole class of inputs fails.", "anchors": ["pyowc/calibration.py:update_salinity_mapping"]}
{"id": "C88", "title": "With a float directory the mapped file is never reused", "statement": "If float_dir is not empty, the path read differs from the path saved to: a run ends in the same way and saves the same file whatever earlier runs have saved.", "quantifier": "all inputs and earlier files", "why_tests_cant": "A claim about histories of runs.", "anchors": ["pyowc/calibration.py:update_salinity_mapping"]}
{"id": "C89", "title": "A repeated float pressure south of 30S aborts the run", "statement": "If the float profile is south of 30S and two successive levels with pressure and temperature have the same pressure, frontal_constraint_saf always raises ValueError.", "quantifier": "all float profiles and historical data", "why_tests_cant": "A whole class of inputs fails; depends on numpy's truth value of arrays.", "anchors": ["pyowc/data/fetchers.py:frontal_constraint_saf"]}
{"id": "C90", "title": "The side of a cast is decided by all its levels", "statement": "The side of the front on which a cast counts is that of its temperature at 300 dbar, computed from all its levels. (False: the last row of the matrices is never used; true if that row is missing.)", "quantifier": "all casts", "why_tests_cant": "Depends on the other casts, which determine the number of rows.", "anchors": ["pyowc/data/fetchers.py:frontal_constraint_saf"]}
{"id": "C91", "title": "One profile without usable reference casts stops the whole run", "statement": "If update_salinity_mapping ends without exception (no mapped file), then around every profile with a position and a pressure below its first level there are reference casts, all with positions, and one lies in the ellipse of three times the large scales. A single profile without reference casts ends the run with an exception and nothing is saved for any profile.", "quantifier": "all float sources, reference data and configurations", "why_tests_cant": "Combines the box table, the reference files, the choice of casts and the outer loop, for all inputs.", "anchors": ["pyowc/calibration.py:update_salinity_mapping", "pyowc/data/fetchers.py:get_region_hist_locations", "pyowc/core/finders.py:find_besthist"]}
{"id": "C92", "title": "Levels that cannot be mapped are saved as missing", "statement": "In the file saved by a successful first run all numbers are NaN for every level without salinity or pressure, above the exclusion depth, or in a profile without position or pressures.", "quantifier": "all float sources with ascending profile numbers, all reference data and configurations", "why_tests_cant": "A claim about the whole pipeline for all inputs.", "anchors": ["pyowc/calibration.py:update_salinity_mapping"]}
{"id": "C93", "title": "Saved mapping errors and variances are not negative", "statement": "Every mapping error, noise variance and signal variance in the file saved by a successful first run is NaN or at least 0.", "quantifier": "all float sources, reference data and configurations", "why_tests_cant": "A claim about the whole pipeline for all inputs.", "anchors": ["pyowc/calibration.py:update_salinity_mapping", "pyowc/core/stats.py:signal_variance", "pyowc/core/stats.py:noise_variance", "pyowc/data/wrangling.py:map_data_grid"]}
{"id": "C94", "title": "The result for a profile does not depend on the other profiles", "statement": "A profile that occurs in two float sources gets the same numbers in both saved files, whatever the other profiles are (successful first runs, same reference data and configuration).", "quantifier": "all pairs of float sources with ascending profile numbers", "why_tests_cant": "Relates two whole runs.", "anchors": ["pyowc/calibration.py:update_salinity_mapping"]}
{"id": "C95", "title": "A float is never mapped with its own data", "statement": "Argo reference casts whose source contains the float's name have no influence on update_salinity_mapping: with reference data that differ only in them, exceptions and saved files are the same.", "quantifier": "all pairs of reference data that differ only in the float's own Argo casts (no Argo file with a single cast)", "why_tests_cant": "Relates two whole runs on different data.", "anchors": ["pyowc/calibration.py:update_salinity_mapping", "pyowc/data/fetchers.py:get_data"]}
{"id": "C96", "title": "Longitude differences near Greenwich", "statement": "For a float whose boxes span Greenwich, the differences of longitude used to choose casts and to map are the true ones exactly if the casts are not all on the other side of Greenwich. If they all are, every cast counts as about 360 degrees away: the run fails, or (if only the chosen casts are all on the other side) maps from casts it takes to be 300 degrees away.", "quantifier": "all positions of the float and the casts with boxes across Greenwich", "why_tests_cant": "A claim about all real positions; the failing class is narrow.", "anchors": ["pyowc/calibration.py:update_salinity_mapping", "pyowc/utilities.py:wrap_longitude", "pyowc/data/fetchers.py:get_region_hist_locations"]}
{"id": "C97", "title": "Depths can always be looked up", "statement": "With a complete bathymetry file the depth lookups for the float and for the reference casts succeed for all positions with latitudes from -90 to 90 and longitudes from -180 to 540 and give one depth per cast.", "quantifier": "all known positions in these ranges", "why_tests_cant": "A claim about all real positions, including the edges of the grid.", "anchors": ["pyowc/calibration.py:update_salinity_mapping", "pyowc/data/fetchers.py:get_topo_grid"]}
{"id": "C98", "title": "set_calseries leaves at most one limit of each kind", "statement": "After set_calseries there is at most one upper and one lower limit of temperature and of pressure. (False: two limits stored as a row of the matrix, as savemat stores a list, are kept; only those stored as a column are removed.)", "quantifier": "all calseries files", "why_tests_cant": "All shapes of the stored arrays.", "anchors": ["pyowc/configuration.py:set_calseries"]}
{"id": "C99", "title": "Calseries files from before use_percent_gt are accepted", "statement": "If the calseries file has no use_percent_gt, set_calseries uses 0.5. (False: it raises KeyError.)", "quantifier": "all calseries files", "why_tests_cant": "All histories with an older file.", "anchors": ["pyowc/configuration.py:set_calseries"]}
{"id": "C100", "title": "Calibrated values follow from the factor, level by level", "statement": "In a file saved by calc_piecewisefit, every level of a profile with a conductivity factor has as calibrated conductivity the factor times the conductivity of its own salinity and temperature, with the error of the factor times this conductivity as error, as calibrated salinity the salinity of that conductivity at its temperature, and as error the change of that salinity when the error is added to the conductivity. The salinity of the station follows in the same way from the mean of the profile and its error from the scatter about the mean. The user's limits only restrict the fit: all levels are calibrated. A level is missing exactly if its salinity or temperature is.", "quantifier": "all data, settings and conversion functions", "why_tests_cant": "All profiles, gaps and limits.", "anchors": ["pyowc/calibration.py:calc_piecewisefit"]}
{"id": "C101", "title": "A correction has one sign", "statement": "If conversion to conductivity and back is the identity, a factor of 1 changes no salinity; if salinity moreover grows with conductivity, a factor above 1 raises and one below 1 lowers every salinity of the profile.", "quantifier": "all data and all conversion functions with these properties", "why_tests_cant": "All levels and all conversion functions.", "anchors": ["pyowc/calibration.py:calc_piecewisefit"]}
{"id": "C102", "title": "Factors of a segment lie on a straight line", "statement": "In a completed calibration without prescribed break points the factors of a segment are an affine function of the profile number, whose slope is the saved time derivative, and no break points are saved, whatever max_breaks allows: a fit that chooses break points always ends with an exception.", "quantifier": "all data with ascending profile numbers, all limits, all results of the optimiser", "why_tests_cant": "Covers every result of the nonlinear fit and of the random draws.", "anchors": ["pyowc/calibration.py:calc_piecewisefit", "pyowc/core/stats.py:fit_cond"]}
{"id": "C103", "title": "The time derivative has the sign of the change of the factors", "statement": "In a completed calibration the factor increases with the profile number exactly if the saved time derivative is positive. (False for profiles whose numbers descend in the file: the fitted values, in ascending order of the numbers, are stored in file order.)", "quantifier": "all data", "why_tests_cant": "All orders of the profiles.", "anchors": ["pyowc/calibration.py:calc_piecewisefit"]}
{"id": "C104", "title": "What a segment needs to be calibrated", "statement": "calc_piecewisefit completes only if every segment has two or more profiles and a level within the limits with salinity, temperature between -2 and 30 and mapped salinity, and only if no two of its profiles have the same number (unless all have). One segment without these ends the call with an exception and no segment is saved.", "quantifier": "all data and settings", "why_tests_cant": "All gaps, limits and numberings.", "anchors": ["pyowc/calibration.py:calc_piecewisefit", "pyowc/core/finders.py:find_10thetas"]}
{"id": "C105", "title": "Settings of the calibration take effect or are reported", "statement": "calc_piecewisefit uses the limits max_breaks and the break points the user prescribes for each segment. (False: with prescribed break points no file with results is ever saved. A file without any result is saved exactly if there are more rows of break points than segments, or as many and some segment has more break points than its limit; otherwise the call raises: an IndexError if there are fewer rows than segments, a ValueError if there are enough rows and the limits are stored as a row of several numbers. Limits stored as a row, as savemat stores a list, count only by their first number for all segments; a number of limits other than one or the number of segments saves a file without any result.)", "quantifier": "all calseries files", "why_tests_cant": "All settings.", "anchors": ["pyowc/calibration.py:calc_piecewisefit"]}
{"id": "C106", "title": "The calibration uses the configured scales for longitude and latitude", "statement": "In the covariance of the observations, differences of longitude are divided by the longitude scale and differences of latitude by the latitude scale. (False: they are exchanged, and longitudes are not reduced modulo 360.)", "quantifier": "all positions and scales", "why_tests_cant": "All positions.", "anchors": ["pyowc/calibration.py:calc_piecewisefit", "pyowc/core/stats.py:build_cov", "pyowc/core/stats.py:covarxy_pv"]}
{"id": "C107", "title": "The calibration completes", "statement": "With max_breaks -1, calc_piecewisefit completes if profile numbers are distinct, positions and calseries are complete, every segment has a level that find_10thetas chooses and that can be compared in some profile, mapping errors are positive and temperatures are between -2 and 30. With max_breaks 0 it completes if moreover every segment has such levels in two profiles.", "quantifier": "all such data, any number of profiles, levels and segments; without potential vorticity; every increasing positive conductivity function", "why_tests_cant": "Guarantees termination with a result for every size.", "anchors": ["pyowc/calibration.py:calc_piecewisefit"]}
{"id": "C108", "title": "Salinities on theta levels are interpolated, never extrapolated", "statement": "Every value that a completed sal_var_plot draws for a profile on a theta level (salinity, mapped and calibrated salinity and their errors) comes from the rows of the profile that were kept: the value at the row nearest to the level, or that on the line between it and the next row across the level. On theta levels that were not found nothing is drawn.", "quantifier": "all profiles, limits and numbers of levels", "why_tests_cant": "All data and gaps.", "anchors": ["pyowc/plot/plots.py:sal_var_plot"]}
{"id": "C109", "title": "When sal_var_plot fails under limits", "statement": "Once find_10thetas returns and at most ten levels are asked for, sal_var_plot stops with IndexError exactly if a cell outside the limits (other than an upper limit of temperature alone) belongs to a profile whose position is not less than the number of rows. With a lower limit of pressure, at least as many profiles as rows and a mapped level above the limit depth in each profile it never completes: at most one figure is saved.", "quantifier": "all profiles, limits and numbers of levels up to ten", "why_tests_cant": "All numbers of profiles and levels.", "anchors": ["pyowc/plot/plots.py:sal_var_plot"]}
{"id": "C110", "title": "Salinity anomalies are deviations from the median at equal temperature", "statement": "For profiles without repeated temperatures, sal_anom_plot interpolates the salinity linearly in temperature between the two neighbouring measured levels (missing for fewer than three points and outside of their range), whatever the order of the levels; at every temperature at least half of the anomalies are not above and half not below zero, they differ from the interpolated salinities by one number common to all profiles, and adding a constant to all salinities does not change them. It raises exactly if no temperature is present.", "quantifier": "all profiles, orders of levels and temperatures; every sort", "why_tests_cant": "All data and tie orders (for repeated temperatures the result does depend on the sort).", "anchors": ["pyowc/plot/plots.py:sal_anom_plot"]}
{"id": "C111", "title": "The averaged offset is a mean over the levels with both salinities", "statement": "The vertically averaged offset of cal_sal_curve_plot is the mean of calibrated minus measured salinity over the levels that have both, missing if there are none; it lies between any bounds of the offsets.", "quantifier": "all profiles", "why_tests_cant": "All gaps.", "anchors": ["pyowc/plot/plots.py:cal_sal_curve_plot"]}
{"id": "C112", "title": "The legend names at most thirty profiles", "statement": "theta_sal_plot names at most 30 profiles in the legend: those at every s-th position before the number of the last profile, s being the smallest step for which 30 names suffice.", "quantifier": "any number of profiles and any last profile number", "why_tests_cant": "All numbers of profiles.", "anchors": ["pyowc/plot/plots.py:theta_sal_plot"]}
{"id": "C113", "title": "Longitudes are drawn between -180 and 180", "statement": "plot_diagnostics draws each float and reference longitude above -180 up to 540 on the same meridian, above -180 and at most 180.", "quantifier": "all longitudes in (-180, 540]", "why_tests_cant": "All real longitudes.", "anchors": ["pyowc/plot/dashboard.py:plot_diagnostics"]}
{"id": "C114", "title": "The steps of an analysis build on each other", "statement": "For a float directly in the source directory, in a configuration like the default one, calc_piecewisefit uses the mapped data just saved by update_salinity_mapping and the settings just saved by set_calseries, and plot_diagnostics shows these and the calibration just saved, whatever was on the disk before. The mapped data are found again exactly if float_dir names no directory.", "quantifier": "all float names without /, all contents of the disk, all such configurations", "why_tests_cant": "All names and disk contents.", "anchors": ["pyowc/calibration.py:update_salinity_mapping", "pyowc/calibration.py:calc_piecewisefit", "pyowc/configuration.py:set_calseries", "pyowc/plot/dashboard.py:plot_diagnostics"]}
{"id": "C115", "title": "Floats do not interfere", "statement": "In any sequence of update_salinity_mapping, set_calseries, calc_piecewisefit and plot_diagnostics calls for any floats, the results and files of a float are those of its own calls alone, provided no other float in the sequence has the same name.", "quantifier": "all histories of calls of any length, all floats and disk contents", "why_tests_cant": "Ranges over all interleavings.", "anchors": ["pyowc/calibration.py:update_salinity_mapping", "pyowc/calibration.py:calc_piecewisefit", "pyowc/configuration.py:set_calseries", "pyowc/plot/dashboard.py:plot_diagnostics"]}
{"id": "C116", "title": "Mapped data of a float in a directory of its own are never updated", "statement": "For a float in a directory of its own no sequence of calls, for whatever floats, changes the mapped data that update_salinity_mapping and calc_piecewisefit read for it. So, unless the user puts a file there, calc_piecewisefit ends with FileNotFoundError however often the float is mapped.", "quantifier": "all histories of calls, all floats in a directory", "why_tests_cant": "Ranges over all histories.", "anchors": ["pyowc/calibration.py:update_salinity_mapping", "pyowc/calibration.py:calc_piecewisefit"]}
{"id": "C117", "title": "Mapped data are filed by the name of the float alone", "statement": "A completed update_salinity_mapping for a float replaces the mapped data of every float of the same name, in whichever directory, and the plots of that float then show the replaced data.", "quantifier": "all pairs of floats of the same name, all disk contents", "why_tests_cant": "All names.", "anchors": ["pyowc/calibration.py:update_salinity_mapping", "pyowc/plot/dashboard.py:plot_diagnostics"]}
{"id": "C118", "title": "Every step looks for files under the names under which they were saved", "statement": "calc_piecewisefit looks for the calseries file, and plot_diagnostics for the calseries and calibration files, under the names under which they were saved. (True exactly if FLOAT_MAPPED_POSTFIX, respectively FLOAT_SOURCE_POSTFIX, equals FLOAT_CALIB_POSTFIX.)", "quantifier": "all configurations and float names", "why_tests_cant": "All settings.", "anchors": ["pyowc/calibration.py:calc_piecewisefit", "pyowc/configuration.py:set_calseries", "pyowc/plot/dashboard.py:plot_diagnostics"]}
{"id": "C119", "title": "No figure overwrites another", "statement": "The figures of plot_diagnostics have different files for different figures of a float and for floats with different names.", "quantifier": "all float names, directories and formats", "why_tests_cant": "All pairs of names.", "anchors": ["pyowc/plot/plots.py:trajectory_plot", "pyowc/plot/plots.py:theta_sal_plot", "pyowc/plot/plots.py:sal_var_plot", "pyowc/plot/plots.py:sal_anom_plot", "pyowc/plot/plots.py:cal_sal_curve_plot", "pyowc/plot/plots.py:t_s_profile_plot"]}
{"id": "C120", "title": "The error of the time derivative is a scaled variance", "statement": "For uncorrelated data the number fit_cond returns as error of the time derivative of a fitted line is the variance of its slope times half the range of profile numbers over the standard deviation of the values (so neither a standard error nor a variance). For an offset it is NaN.", "quantifier": "all data and positive errors", "why_tests_cant": "All data sets.", "anchors": ["pyowc/core/stats.py:fit_cond"]}
{"id": "C121", "title": "The error of an offset under correlations", "statement": "For an offset, fit_cond returns the same error for every profile. With non-negative correlations it is at least the standard error of uncorrelated data and at most that times the square root of the number of data. If all errors are equal it is the standard error of the mean under the correlations; for different errors it can be another number.", "quantifier": "all data, positive errors and correlations in [0,1]", "why_tests_cant": "All correlation matrices.", "anchors": ["pyowc/core/stats.py:fit_cond"]}
{"id": "C122", "title": "The error of a straight line does not depend on the values", "statement": "Where fit_cond fits a straight line, the error of a fitted value is determined by the profile numbers, the errors, the correlations and the random numbers drawn, whatever the observed values. For uncorrelated data it is the root mean square over 200 draws of the weighted least squares line through noise of the size of the errors (moved so that its value at the first profile with data is used at the first profile).", "quantifier": "all data, errors, correlations and random numbers", "why_tests_cant": "Relational, over all values and random draws.", "anchors": ["pyowc/core/stats.py:fit_cond"]}
{"id": "C123", "title": "Calibrations are repeatable up to the errors", "statement": "Two runs of calc_piecewisefit (or calls of fit_cond) on the same data with different random numbers both raise the same exception or both give the same result, except for the errors of the factors and of the conductivities and salinities derived from them. If an offset is fitted, fit_cond gives the same errors as well; for a line the errors do depend on the random numbers.", "quantifier": "all data, settings and random numbers", "why_tests_cant": "Ranges over all sequences of random numbers.", "anchors": ["pyowc/core/stats.py:fit_cond", "pyowc/calibration.py:calc_piecewisefit"]}
{"id": "C124", "title": "The data counted for the mean and scatter of a profile", "statement": "The mean and scatter fit_cond returns for a profile are the error-weighted mean and root mean square deviation of the first observation of the profile and all but the first observation of the previous profile with data; NaN for a profile without data. The mean is within the range of all values and the scatter at most the width of this range.", "quantifier": "all sorted data, positive errors, arguments and optimiser results", "why_tests_cant": "All groupings of observations into profiles.", "anchors": ["pyowc/core/stats.py:fit_cond"]}
{"id": "C125", "title": "Interruptions do not reach other floats", "statement": "In any sequence of update_salinity_mapping, set_calseries, calc_piecewisefit and plot_diagnostics calls, each of which may be interrupted before or while it saves its file, the results and files of a float are those of its own calls alone, provided no other float in the sequence has the same name.", "quantifier": "all histories with any interruptions", "why_tests_cant": "Ranges over all crash points of all histories.", "anchors": ["pyowc/calibration.py:update_salinity_mapping", "pyowc/calibration.py:calc_piecewisefit", "pyowc/configuration.py:set_calseries", "pyowc/plot/dashboard.py:plot_diagnostics"]}
{"id": "C126", "title": "What can be run again after an interruption", "statement": "A call interrupted before it saves changes no file. However often and wherever calc_piecewisefit was interrupted, running it again gives the result of an undisturbed run and a complete file. The same holds for update_salinity_mapping for a float in a directory of its own.", "quantifier": "all crash points, any number of interruptions", "why_tests_cant": "Ranges over all crash points of all histories.", "anchors": ["pyowc/calibration.py:update_salinity_mapping", "pyowc/calibration.py:calc_piecewisefit"]}
{"id": "C127", "title": "A file damaged by an interruption has to be deleted by the user", "statement": "If update_salinity_mapping for a float without a directory is interrupted while it saves, no sequence of calls repairs the mapped file: mapping, calibration and plots of this float raise the exception for an unreadable file from then on. The same holds for set_calseries with the calseries file, which makes calibration and plots fail too.", "quantifier": "all histories after the interruption", "why_tests_cant": "Ranges over all histories.", "anchors": ["pyowc/calibration.py:update_salinity_mapping", "pyowc/configuration.py:set_calseries"]}
{"id": "C128", "title": "The depth used is that of the bathymetry at the position", "statement": "With a complete bathymetry file, the depth that update_salinity_mapping uses for the float, the depths it computes for the reference casts, and the depths that calc_piecewisefit uses are the bilinear depths of the file at the positions concerned: the opposite of the elevation interpolated between the four surrounding nodes of 5 minutes of arc. South of 89 degrees 55 minutes S it is the depth there. The depth is one number for each position and does not depend on how the longitude is counted.", "quantifier": "all bathymetry files, positions and numbers of casts", "why_tests_cant": "A continuum of positions; reading, windowing, shifting and interpolation have to fit together.", "anchors": ["pyowc/calibration.py:update_salinity_mapping", "pyowc/helper.py:process_profiles_grid_variables", "pyowc/calibration.py:calc_piecewisefit", "pyowc/data/fetchers.py:get_topo_grid"]}
{"id": "C129", "title": "The saved coefficients are those of all segments in order", "statement": "In a completed calibration (ascending profile numbers, no prescribed break points) the saved fcoef is the list of the coefficients of the segments, one segment after the other in ascending order of their values in calseries. A segment contributes one number, the common factor of its profiles, if its time derivative is 0, or two: the factor of its first profile and the time derivative.", "quantifier": "all data with ascending profile numbers, all settings", "why_tests_cant": "All partitions into segments, all results of the fits.", "anchors": ["pyowc/calibration.py:calc_piecewisefit", "pyowc/core/stats.py:fit_cond"]}
{"id": "C130", "title": "Which mapped values a profile is calibrated with", "statement": "After update_salinity_mapping has mapped a float from scratch, calc_piecewisefit compares the measurements of each profile with the mapped values computed for this profile, provided the profile numbers of the source ascend or descend. For other orders it does not: the mapped matrices are sorted twice, so the profile at position i is compared with the values of profile j, where k is the position of the i-th smallest number and j that of the k-th smallest. With profile numbers 2, 3, 1 every profile is calibrated with the mapped values of another one.", "quantifier": "all floats with different profile numbers, all completed mappings", "why_tests_cant": "All orders of the profiles; two steps that communicate through a file.", "anchors": ["pyowc/calibration.py:update_salinity_mapping", "pyowc/calibration.py:calc_piecewisefit"]}
{"id": "C131", "title": "Calibration with the settings of a first set_calseries", "statement": "set_calseries without an earlier file puts all profiles with some salinity, temperature and pressure into one segment and no others, whatever the order of the profiles, with at most four break points and no limits. A calibration with these settings that completes has no results for the other profiles, a factor and the calibrated values of every level for each profile of the segment, no break points, and with ascending profile numbers its factors are on one straight line in the profile number.", "quantifier": "all sources, mapped files, positions and bathymetries", "why_tests_cant": "All sources; the steps communicate through a file.", "anchors": ["pyowc/configuration.py:set_calseries", "pyowc/calibration.py:calc_piecewisefit"]}
{"id": "C132", "title": "A constant offset is found and removed", "statement": "If in each segment the mapped conductivity is the measured conductivity times one number (at all levels at which both are known) and calc_piecewisefit completes, then, whatever number of break points is allowed, the factor of every profile is the number of its segment and the time derivative 0, and the calibrated salinity at these levels is the mapped salinity.", "quantifier": "all data with a constant ratio in each segment, all segmentations, any limit of break points from -1", "why_tests_cant": "All data sets, numbers of profiles and ratios.", "anchors": ["pyowc/calibration.py:calc_piecewisefit", "pyowc/core/stats.py:fit_cond"]}
{"id": "C133", "title": "What a run saves, in terms of its input files", "statement": "When update_salinity_mapping maps a float from scratch and succeeds, and the frontal criterion is off, the entries saved for a level with salinity and a pressure at or below the exclusion pressure are as follows. From the casts of the boxes around the profile those in the ellipse are chosen (all, or as many as are wanted). The chosen casts with data that meet the temperature of the level within the pressure window are used, each with its salinity interpolated there. With at most five of them all entries are missing. Otherwise the casts more than three standard deviations from the mean are dropped; the noise is half the mean squared difference between nearest neighbours; the salinity is the two-stage best linear unbiased estimate (with the documented correlations, at the position, date and depth of the profile), missing unless between 30 and 40; the error is the root of the sum of the mean square errors of the two stages; the signal is the variance of the salinities; the temperature is that of the level.", "quantifier": "all sources, reference databases, bathymetries and positive scales, all random numbers", "why_tests_cant": "The values depend on every part of the mapping; a test can only compare with stored numbers.", "anchors": ["pyowc/calibration.py:update_salinity_mapping", "pyowc/helper.py:process_profile_hist_variables", "pyowc/data/wrangling.py:interp_climatology", "pyowc/core/stats.py:noise_variance", "pyowc/core/finders.py:find_besthist"]}
{"id": "C134", "title": "Levels outside the limits have no influence on the fit", "statement": "With a calseries file that has at most one upper and one lower limit of temperature and of pressure, calc_piecewisefit fits only levels that are mapped and within these limits: if salinities, temperatures, pressures or mapped values of other levels are changed, in any way that leaves these levels outside, or if levels that are not mapped or outside the limits, such as the empty ones that fill up a matrix, are added or removed at the end of profiles, the call raises the same exception or saves the same factors, errors, time derivatives, means, scatters, coefficients and break points.", "quantifier": "all data, calseries files and changes", "why_tests_cant": "Relational over all changes of the data.", "anchors": ["pyowc/calibration.py:calc_piecewisefit", "pyowc/core/finders.py:find_10thetas", "pyowc/configuration.py:set_calseries"]}
{"id": "C135", "title": "The levels from which find_10thetas chooses", "statement": "find_10thetas chooses among the mean temperatures at pressures in equal steps from the least usable pressure, as many as are below the greatest, always at least ten: in steps of 50 dbar or, if the usable pressures span at most 450 dbar, of a tenth of this span rounded down to whole decibars. If the range of the usable temperatures does not contain two different tenths of a degree the call ends with a NameError; if it does and the usable pressures span less than 10 dbar, with a ValueError.", "quantifier": "all arrays and limits", "why_tests_cant": "All ranges of pressure and temperature.", "anchors": ["pyowc/core/finders.py:find_10thetas"]}
{"id": "C136", "title": "The map shows all reference casts and names the profiles", "statement": "plot_diagnostics draws its map exactly if the mapped file has a reference cast and the source has a number, a latitude and a longitude for each profile. Every reference cast and every profile with a known position is drawn on its own meridian, between -180 and 180 degrees, and at its latitude. The axes reach exactly 20 degrees of longitude and 15 of latitude beyond the outermost reference casts as drawn. The profile numbers written are those of the first, the last and every third profile, each where its profile is drawn, so one of any three successive profiles is named. (The axes are not extended to the float: if it is just across the date line from all its reference casts it is not on the map.)", "quantifier": "all mapped files and sources", "why_tests_cant": "All sets of positions.", "anchors": ["pyowc/plot/dashboard.py:plot_diagnostics", "pyowc/plot/plots.py:trajectory_plot"]}
{"id": "C137", "title": "The error bars belong to the chosen levels", "statement": "Whenever find_10thetas succeeds on the data of a float, the error bars of theta_sal_plot can be drawn. A profile has one for each chosen temperature that lies strictly between its temperatures at mapped levels within the limits, in the order of the choice, and no others, hence at most ten; it stands at the mapped temperature and salinity of the level nearest to the chosen temperature, with the mapping error as its width.", "quantifier": "all data and limits", "why_tests_cant": "All profiles, limits and choices of levels.", "anchors": ["pyowc/plot/dashboard.py:plot_diagnostics", "pyowc/plot/plots.py:theta_sal_plot", "pyowc/core/finders.py:find_10thetas"]}
{"id": "C138", "title": "Which figures plot_diagnostics saves", "statement": "The figures are saved in a fixed order: map, uncalibrated curve, uncalibrated anomalies, calibration curve (if there is a calibrated salinity), calibrated curve, one figure for each theta level asked for, calibrated anomalies, chosen levels. A call saves the figures of this list up to some point, all of them exactly if it raises no exception. It raises none exactly if the map can be drawn, theta levels are found, there are two profiles (or no anomalies are asked for) and the figures of the theta levels succeed. If no theta levels are found only the map is saved. With a lower limit of pressure, at least as many profiles as levels and a mapped level above the limit in each profile, the calibrated anomalies and the chosen levels are never saved.", "quantifier": "all inputs of consistent shape", "why_tests_cant": "All data, limits and numbers of figures.", "anchors": ["pyowc/plot/dashboard.py:plot_diagnostics", "pyowc/plot/plots.py:sal_var_plot", "pyowc/plot/plots.py:sal_anom_plot"]}
{"id": "C139", "title": "Data that do not determine the allowed break points make fit_cond fail", "statement": "With good observations at two different profiles, fit_cond raises ValueError exactly if the observations do not determine one of the broken lines that the allowed number of break points and the degrees of freedom admit, with the break points last tried by the optimiser. In particular it does so whenever a break point is allowed, there are at least 7 degrees of freedom and the good observations belong to at most three different profiles; and whenever a line is allowed, there are at least 5 degrees of freedom and all good observations belong to one profile.", "quantifier": "all data, positive errors, correlation matrices and optimiser results", "why_tests_cant": "All sets of profiles, all results of the optimiser.", "anchors": ["pyowc/core/stats.py:fit_cond", "pyowc/core/stats.py:brk_pt_fit"]}
{"id": "C140", "title": "What the number of loops changes in fit_cond", "statement": "For any data and any other arguments of fit_cond: two positive values of nloops either both fail in the same way or give results that differ at most in the errors of the fitted values; 200 is the default. If the fit is a constant, nloops has no influence at all, whatever is passed. If it is a line, 0 raises ZeroDivisionError and anything but an integer TypeError. A negative number is accepted: all errors of a fitted line are then 0 (or missing), and the fit is that of a positive number, or - only if it has break points - one for which a positive number raises TypeError. A fit with break points that were not given by the caller is only ever returned for a negative number; with one, the model returned has the least Akaike criterion of those allowed.", "quantifier": "all observations, correlations, arguments, optimiser results and random numbers", "why_tests_cant": "All data and all argument lists.", "anchors": ["pyowc/core/stats.py:fit_cond"]}
{"id": "C141", "title": "Levels added to the source are never mapped", "statement": "A float is mapped for the first time with ascending profile numbers; then its source file is replaced by one with more levels per profile but no new profile numbers, and update_salinity_mapping runs again. The second run ends without an exception and computes nothing: at every profile and old level the saved values are those of the first run, and at every new level all values are missing, whatever could have been computed there. The same holds for any consistent mapped file with fewer levels than the source.", "quantifier": "all sources, data that can be mapped, numbers of levels and directories", "why_tests_cant": "All histories of two runs, all numbers of levels.", "anchors": ["pyowc/calibration.py:update_salinity_mapping"]}
{"id": "C142", "title": "What the saved figures show", "statement": "Any number of calls of plot_diagnostics in one Python session, for any floats, some of which may end with an exception. The files <float>_uncalibrated_theta_sal and <float>_uncalibrated_salinity_anomaly_<bounds> hold the measured salinities, those named calibrated the calibrated ones, <float>_salinity_variance_<i> theta level i, all drawn by the last call for this float and nothing else, whatever figures were open before and whatever plt.show() does with them. If plt.show() leaves no figure open, nothing was open at the start, and no earlier call ended with an exception after it had saved the figure of a theta level, the same holds of the map, the calibration curve and the profiles.", "quantifier": "all sessions, floats, data, directories, formats and Matplotlib backends", "why_tests_cant": "All sequences of calls and all failures in between.", "anchors": ["pyowc/plot/dashboard.py:plot_diagnostics", "pyowc/plot/plots.py:trajectory_plot", "pyowc/plot/plots.py:theta_sal_plot", "pyowc/plot/plots.py:t_s_profile_plot", "pyowc/plot/plots.py:sal_var_plot", "pyowc/plot/plots.py:cal_sal_curve_plot", "pyowc/plot/plots.py:sal_anom_plot"]}
{"id": "C143", "title": "Figures that are drawn over others", "statement": "The map is drawn on whatever figure is the current one, and its file holds all that was there. After a call that ended with an exception after saving the figure of a theta level, the file of the next float's map holds this figure of the previous float as well, even if plt.show() closes figures. If plt.show() leaves figures open (no display), the file of the calibration curve holds the map and the salinity offset but not the panel of the conductivity factor, and the map of the next float also shows the profiles of the float before.", "quantifier": "all sessions, floats and data", "why_tests_cant": "All histories of calls in one session.", "anchors": ["pyowc/plot/dashboard.py:plot_diagnostics", "pyowc/plot/plots.py:trajectory_plot", "pyowc/plot/plots.py:cal_sal_curve_plot", "pyowc/plot/plots.py:t_s_profile_plot"]}
{"id": "C144", "title": "Floats may be analysed at the same time", "statement": "Several processes analyse floats with different names at the same time, in the same directories: each calls the four steps (set_calseries, update_salinity_mapping, calc_piecewisefit, plot_diagnostics) for its own floats in any order. However the reading and writing of files by the processes is interleaved, and whichever processes are stopped wherever, a process that comes to its end has the results it would have alone, and the files of its floats are those it would leave alone. A process that is not stopped comes to its end whatever the others do. If a process is stopped, the files of its floats are those after some of its steps, the next one interrupted.", "quantifier": "all numbers of processes, sequences of steps, schedules of single file accesses, stops, floats with different plain names, and contents of the disk", "why_tests_cant": "All interleavings of any number of processes, and all points at which they are stopped.", "anchors": ["pyowc/calibration.py:update_salinity_mapping", "pyowc/calibration.py:calc_piecewisefit", "pyowc/configuration.py:set_calseries", "pyowc/plot/dashboard.py:plot_diagnostics", "pyowc/helper.py:load_varibales_from_file"]}
{"id": "C145", "title": "The same float must not be mapped and calibrated at the same time", "statement": "A float without a directory has been mapped. One process maps it again while another one calibrates it. One after the other, in either order, both succeed. At the same time, the mapping always succeeds, but the calibration uses the earlier mapped data, uses the new ones, or ends with an exception about a damaged file; each of these happens for some order of the accesses to files, and nothing else does.", "quantifier": "all schedules, data and floats without a directory", "why_tests_cant": "All interleavings of two processes.", "anchors": ["pyowc/calibration.py:update_salinity_mapping", "pyowc/calibration.py:calc_piecewisefit"]}
{"id": "C146", "title": "A linear drift of the sensor", "statement": "Profile numbers ascend, and in a segment the mapped conductivity is the measured one times a + b * number (b not 0) at every level that can be compared. If calc_piecewisefit completes, whatever number of break points is allowed, then either all factors of the segment are the same and the time derivative is 0, or every factor is a + b * (number + d) and the time derivative is b, where d is the distance in profile numbers from the first profile of the segment to the first one with a usable level. The second case is certain if a slope is allowed and there are enough usable profiles far apart: n >= 5 (1 + 10 (m - 1) eps) of m profiles, with a horizontal correlation of at most eps between any two. Then, if the first profile is usable, the factors are exactly a + b * number and the calibrated salinity is the mapped one; if it is not, every factor of the segment is wrong by b * d.", "quantifier": "all segments, slopes, data, positions and break limits", "why_tests_cant": "All data of any number of profiles.", "anchors": ["pyowc/calibration.py:calc_piecewisefit", "pyowc/core/stats.py:fit_cond", "pyowc/core/stats.py:build_cov"]}
{"id": "C147", "title": "A drift that changes its slope makes the calibration fail", "statement": "Profile numbers ascend, at least one break point is allowed, and in a segment the mapped conductivity is the measured one times a broken line in the profile number with one bend. If the optimiser finds the bend exactly, and there are enough usable profiles far apart (n >= 7 (1 + 10 (m - 1) eps) of m profiles, with a horizontal correlation of at most eps between any two), calc_piecewisefit ends with an exception: of all drifts only constant and linear ones can be calibrated. With no break point allowed the same data can be calibrated: as soon as every segment has two usable profiles calc_piecewisefit completes, and the factors of each segment lie on a straight line.", "quantifier": "all segments, bends, slopes, data, positions and break limits of at least 1", "why_tests_cant": "All data of any number of profiles.", "anchors": ["pyowc/calibration.py:calc_piecewisefit", "pyowc/core/stats.py:fit_cond"]}
{"id": "C148", "title": "The plots after a calibration with one segment get as far as the salinities on the chosen levels; a profile outside the segments can stop them after the map", "statement": "If all profiles are in one segment, no break points are prescribed and calc_piecewisefit saves a calibration, then plot_diagnostics, made from the same data, the same limits and this calibration, chooses the same theta levels as the calibration did. If the map can be drawn (there are selected historical points, and the profile numbers, latitudes and longitudes are equally many), it saves the map, the theta-salinity plots, the salinity anomalies, and, if there is a calibrated salinity, the calibration curve; it raises an exception only if sal_var_plot does, and without one all figures are saved. This is not so if a profile is excluded from the calibration (0 in calseries): plot_diagnostics chooses its levels from all profiles, so that an excluded profile can make it fail right after the map although the calibration completed.", "quantifier": "All data, settings, conversions, optimisers and inputs of the plots in which all profiles are in one segment; for the last statement, one calibration of three profiles and every drawable map.", "why_tests_cant": "The theta levels are chosen twice, by two programs, from arrays which are selected in different ways; that one choice succeeds whenever the other does is a statement about all data.", "anchors": ["pyowc/calibration.py:calc_piecewisefit", "pyowc/plot/dashboard.py:plot_diagnostics", "pyowc/core/finders.py:find_10thetas", "pyowc/plot/plots.py:sal_var_plot"]}
{"id": "C149", "title": "More or better data never make the objective mapping less certain", "statement": "map_data_grid is called with some casts, and again with the same casts and any others, in any order and with any values, with the same scales and a signal variance and a noise variance that are not larger. Both calls succeed, and the error of the mapped value at the float, and at every one of the first casts, is not larger in the second call.", "quantifier": "all sets of casts, positions, values, scales, and signal and noise variances", "why_tests_cant": "All pairs of calls with any numbers of casts.", "anchors": ["pyowc/data/wrangling.py:map_data_grid"]}
{"id": "C150", "title": "The mapping does not look at the salinities that are to be tested, unless the Subantarctic Front is used", "statement": "If the Subantarctic Front is switched off or no profile lies south of 30S, update_salinity_mapping does the same for two sources whose profiles have the same positions, dates, pressures and potential temperatures and have salinities at the same levels: the same exceptions and the same states of the directory, whatever the salinities and the in-situ temperatures are. So the mapped salinities cannot be influenced by the error of the sensor they are compared with, except through the potential temperatures in the source. With the front this is not so: two floats that differ in nothing but their salinities can be compared with different casts.", "quantifier": "all runs, reference data, configurations, earlier files, and all salinities and in-situ temperatures", "why_tests_cant": "All values of the salinities of all profiles.", "anchors": ["pyowc/calibration.py:update_salinity_mapping", "pyowc/data/wrangling.py:interp_climatology", "pyowc/data/fetchers.py:frontal_constraint_saf"]}
{"id": "C151", "title": "print_cfg shows every parameter of the configuration", "statement": "The text returned by print_cfg is an empty line followed by one line for each parameter, in the order of the configuration: blanks, the name, a colon, a blank and the text of the value, with the colon in column 31 for all names of up to 30 characters. If names have no blank, colon or new line and the values have no new line, the text determines the configuration: two configurations with the same text have the same names with the same texts of values in the same order. A value whose text has a new line, such as a matrix, can look like another parameter.", "quantifier": "all configurations with any number of parameters, names and values", "why_tests_cant": "All configurations, and pairs of them.", "anchors": ["pyowc/configuration.py:print_cfg"]}
{"id": "C152", "title": "Coasts, depths and reefs are drawn part by part", "statement": "If each shape of a shape file consists of parts with at least one point, draw_shapes_as_patches adds one path for each shape to the axes, in their order and after what is already there; the path has the points of the shape, and the lines drawn are exactly those which join neighbouring points of a part, so that no line joins two islands. A part that starts behind the last point is an IndexError, and a shape in which no part starts at the first point, such as one without points, is a ValueError; the shapes before it stay on the axes, and none behind it is drawn.", "quantifier": "all shape files with any numbers of shapes, parts and points", "why_tests_cant": "All shapes of all sizes.", "anchors": ["pyowc/plot/plots.py:draw_shapes_as_patches", "pyowc/plot/plots.py:trajectory_plot"]}
{"id": "C153", "title": "Only differences of dates matter to the mapping", "statement": "If the texts of the dates of all reference casts are replaced so that every one is decoded as a date T years later (T may be negative or a fraction), and the dates of all profiles in the source are T years later as well, update_salinity_mapping does the same as before: the same exceptions, the same states of the directory and the same saved numbers. A readable date with another year of four digits is decoded as the date moved by the difference of the years, whether they are leap years or not.", "quantifier": "all runs, reference data, configurations, earlier files, and all differences of time", "why_tests_cant": "All dates of all casts and profiles, moved by any time.", "anchors": ["pyowc/calibration.py:update_salinity_mapping", "pyowc/utilities.py:change_dates", "pyowc/core/finders.py:find_besthist", "pyowc/data/wrangling.py:map_data_grid"]}
{"id": "C154", "title": "Without MAP_USE_PV the sea floor does not influence the mapping", "statement": "If MAP_USE_PV is not 1, update_salinity_mapping does the same (the same exceptions, the same states of the directory and the same saved numbers) with another topography file of the same size, whatever depths it holds: depths matter only through the potential vorticity.", "quantifier": "all runs, reference data, configurations without MAP_USE_PV, earlier files, and all topographies", "why_tests_cant": "All topographies.", "anchors": ["pyowc/calibration.py:update_salinity_mapping", "pyowc/data/fetchers.py:get_topo_grid", "pyowc/core/finders.py:find_besthist", "pyowc/data/wrangling.py:map_data_grid"]}
{"id": "C155", "title": "An offset or another unit of the reference salinities appears unchanged in the mapped salinities", "statement": "If the Subantarctic Front is not used and every reference salinity s is replaced by a s + b with a not 0, update_salinity_mapping ends in the same way (saved or the same exception), after as many changes of the directory. A newly saved file has the same profiles, sizes, temperatures, settings and selected casts; mapping errors have the factor |a|, signal and noise variances a^2, and a mapped salinity v becomes a v + b. The exception is the range of 30 to 40: a value that leaves or enters it is missing in one of the files. So an error common to all reference salinities is passed on to the last digit, and selects no other casts and removes no other outliers.", "quantifier": "all runs, reference data, configurations without the front, earlier files, and all factors and offsets", "why_tests_cant": "All values of all reference salinities, of any number of casts and levels.", "anchors": ["pyowc/calibration.py:update_salinity_mapping", "pyowc/core/stats.py:signal_variance", "pyowc/core/stats.py:noise_variance", "pyowc/data/wrangling.py:map_data_grid", "pyowc/data/wrangling.py:interp_climatology"]}
{"id": "C156", "title": "Numbers of profiles and labels of segments are names", "statement": "If the numbers of all profiles, and the break points prescribed in the calseries file, are moved by the same amount, fit_cond and calc_piecewisefit do the same: the same exception, or the same calibrated salinities, errors, slopes and coefficients, with the break points moved by that amount. If the segments are given other labels in the same order, with 0 still meaning that a profile is in no segment, calc_piecewisefit does the same.", "quantifier": "all observations, profiles, settings, optimiser results, amounts and order-preserving labellings", "why_tests_cant": "All numberings of any number of profiles and all labellings.", "anchors": ["pyowc/core/stats.py:fit_cond", "pyowc/core/stats.py:brk_pt_fit", "pyowc/calibration.py:calc_piecewisefit"]}
{"id": "C157", "title": "The saved values when the Subantarctic Front is respected", "statement": "With any setting of use_saf the saved values are those of the two-stage estimate from the reference casts that meet the level, as without the front, but from these casts only: all chosen casts with data if use_saf is not 1, if the float lies at or north of 30 degrees South, or if its side of the front is undecided; otherwise those on the side of the float if there are at least six, and all of them if there are fewer. The side of the float follows from its temperature at 300 dbar (above 5: north, below 3: south), between 3 and 5 from the mean profiles north and south of the front. The side of a cast follows from its temperature at 300 dbar, where a cast with as many usable levels as the deepest one is looked at without its last usable level. The k-th depth used is that of the chosen cast at the position of the k-th cast used (finding C45).", "quantifier": "all float profiles with increasing pressures, reference files, topographies, configurations and in-situ temperature functions that work level by level", "why_tests_cant": "All floats, reference data and sides; the criterion, the selection, the mapping and the saving must agree on the casts.", "anchors": ["pyowc/calibration.py:update_salinity_mapping", "pyowc/data/fetchers.py:frontal_constraint_saf", "pyowc/data/fetchers.py:get_region_data", "pyowc/data/wrangling.py:interp_climatology"]}
{"id": "C158", "title": "Reference casts that are out of reach have no influence", "statement": "If reference files are replaced so that they differ only in boxes that are not among the 25 around any profile of the float, and in the dates, salinities, temperatures and pressures of casts that lie, for every profile, outside the ellipse around it whose half axes are three times the large longitude and latitude scales, update_salinity_mapping does the same: the same exceptions, the same states of the directory and the same saved numbers. The positions of the casts in the 25 boxes and which of them belong to the float itself are the same in both.", "quantifier": "all runs, configurations, earlier files, draws and sorts, and all pairs of such reference data", "why_tests_cant": "All contents of all files out of reach; selection, loading and mapping must agree on what is ignored.", "anchors": ["pyowc/calibration.py:update_salinity_mapping", "pyowc/core/finders.py:find_25boxes", "pyowc/core/finders.py:find_besthist", "pyowc/core/finders.py:find_ellipse", "pyowc/data/fetchers.py:get_region_hist_locations", "pyowc/data/fetchers.py:get_region_data"]}
{"id": "C159", "title": "The way in which the longitudes of reference casts are written does not matter", "statement": "If, in the reference files, the longitudes of any casts between -360 and 0 are written as the same longitudes between 0 and 360 or the other way round, update_salinity_mapping does the same: the same exceptions, the same states of the directory and the same saved numbers.", "quantifier": "all runs, configurations, earlier files, and all ways of writing the longitudes of all casts", "why_tests_cant": "All combinations of conventions over any number of casts; positions, depths, choice and mapping must all agree.", "anchors": ["pyowc/calibration.py:update_salinity_mapping", "pyowc/utilities.py:wrap_longitude", "pyowc/data/fetchers.py:get_region_hist_locations", "pyowc/data/fetchers.py:get_region_data"]}
{"id": "C160", "title": "Reference data far below the float have no influence", "statement": "Reference data at pressures more than MAP_P_DELTA below the deepest pressure of all profiles of the float have no influence: if reference files are replaced by files whose casts have the same positions, dates, sources and levels down to that pressure, and any number of levels with any data below, update_salinity_mapping does the same: the same exceptions, the same states of the directory and the same saved numbers.", "quantifier": "all runs, configurations, earlier files, and all data below that pressure", "why_tests_cant": "All data at all levels in the deep of any number of casts.", "anchors": ["pyowc/calibration.py:update_salinity_mapping", "pyowc/data/fetchers.py:get_region_data"]}
{"id": "C161", "title": "The order of the casts at a level matters only where nearest neighbours are tied", "statement": "For one level, the mapped salinity, its error, the noise and signal variances and the mean, or the failure, do not depend on the order of the reference casts that meet the level, as long as casts that are equally near to another cast, and nearest to it among those at other places, have the same salinity. Without this condition the order does matter: the noise variance is computed from the first of several equally near casts, and six casts in another order can give another noise variance.", "quantifier": "all configurations, float positions, lists of casts and permutations of them", "why_tests_cant": "All orders of any number of casts at any positions.", "anchors": ["pyowc/calibration.py:update_salinity_mapping", "pyowc/core/stats.py:noise_variance", "pyowc/core/stats.py:signal_variance", "pyowc/data/wrangling.py:map_data_grid"]}
{"id": "C162", "title": "The order of the casts in the reference files does not matter", "statement": "If the casts of any reference files are put in another order, and update_salinity_mapping ends normally for the old files with no mapped file present, then the run with the new files saves the same five matrices (potential temperature, mapped salinity, its error, noise and signal variance) if it ends normally (C164 says when it does), as long as: neither MAP_USE_PV nor use_saf is 1, not more casts lie in the ellipse around any profile than MAX_CASTS, and no cast has two equally near neighbours of different salinity (C161). In that case all casts in reach that meet a level are used for it: none is dropped by the selection, whatever the numbers drawn and the sort.", "quantifier": "all runs, reference files, permutations of the casts in each file, configurations without MAP_USE_PV and use_saf, topographies, random numbers and sorts", "why_tests_cant": "All orders of any number of casts in any number of files; reading, selection, loading, interpolation and mapping must all be symmetric.", "anchors": ["pyowc/calibration.py:update_salinity_mapping", "pyowc/core/finders.py:find_besthist", "pyowc/data/fetchers.py:get_region_hist_locations", "pyowc/data/fetchers.py:get_region_data", "pyowc/core/stats.py:noise_variance", "pyowc/data/wrangling.py:map_data_grid"]}
{"id": "C163", "title": "When a run ends normally, in terms of its input files", "statement": "If MAP_USE_PV is not 1, MAP_USE_SAF is not 1 or the profiles are such that it has no effect (C174), no mapped file is present and not more casts lie in the ellipse around any profile than MAX_CASTS, update_salinity_mapping ends normally exactly if for every profile with a position and a pressure below its first level: all casts in the boxes around it have a position; there is a cast in the ellipse, and the first of these in the files has a level not deeper than MAP_P_DELTA below the deepest pressure of the profile; one of them has a complete level down to there; for every complete level of the profile one of them has two complete levels, and none with two or more has exactly the temperature of the float at all of them; at every level with a salinity and a pressure of at least MAP_P_EXCLUDE to which more than five casts contribute, the noise variance of the contributions is not zero; and, for at least one profile, there is such a level.", "quantifier": "all runs over any number of profiles and levels, reference files, configurations, topographies, random numbers and sorts, with positions in range", "why_tests_cant": "All input files; every step of the processing of every profile must be shown to succeed, and each condition shown to be needed.", "anchors": ["pyowc/calibration.py:update_salinity_mapping", "pyowc/core/finders.py:find_25boxes", "pyowc/core/finders.py:find_besthist", "pyowc/data/fetchers.py:get_region_hist_locations", "pyowc/data/fetchers.py:get_region_data", "pyowc/data/wrangling.py:interp_climatology", "pyowc/core/stats.py:noise_variance", "pyowc/data/wrangling.py:map_data_grid"]}
{"id": "C164", "title": "The order of the casts can decide whether a run fails", "statement": "In the situation of C162, after the casts of the reference files have been put in another order the run ends normally exactly if, for every profile, the first cast in the ellipse in the new order has a level not deeper than MAP_P_DELTA below the deepest pressure of the profile. This is a real condition: there are reference data with which a run ends normally, and fails after one cast without any pressure has been moved from the end of its file to the beginning.", "quantifier": "all runs, reference files, permutations of the casts in each file", "why_tests_cant": "All orders of any number of casts; a failure that depends on which cast happens to be first.", "anchors": ["pyowc/calibration.py:update_salinity_mapping", "pyowc/data/fetchers.py:get_region_data", "pyowc/data/wrangling.py:interp_climatology"]}
{"id": "C165", "title": "A run over reference data without defects ends normally", "statement": "update_salinity_mapping with use_saf not 1, MAX_CASTS at least 6 and no mapped file present ends normally if for every profile with a position and a pressure below its first level: all casts in the boxes around it have a position in range; if MAP_USE_PV is 1, the ocean is not of depth zero at any of them; at least one of them is in the ellipse of the selection; each cast in the horizontal ellipse has two complete levels of different temperature not deeper than MAP_P_DELTA below the deepest pressure of the profile; no two of these are at the same place or give the same salinity at a level of the float; and for at least one profile there is a complete level at or below MAP_P_EXCLUDE that all of them meet, with more than five casts in the ellipse of the selection. This holds with MAP_USE_PV 0 or 1 and for any number of casts, whichever of them the random numbers draw.", "quantifier": "all runs over any number of profiles and levels, reference files, topographies, configurations, random numbers and sorts", "why_tests_cant": "All draws of casts and all files; that no draw makes the run fail cannot be seen from runs.", "anchors": ["pyowc/calibration.py:update_salinity_mapping", "pyowc/core/finders.py:find_25boxes", "pyowc/core/finders.py:find_besthist", "pyowc/core/finders.py:find_ellipse", "pyowc/data/fetchers.py:get_region_hist_locations", "pyowc/data/fetchers.py:get_region_data", "pyowc/data/wrangling.py:interp_climatology", "pyowc/core/stats.py:noise_variance", "pyowc/data/wrangling.py:map_data_grid"]}
{"id": "C166", "title": "The configuration after any changes", "statement": "After configuration.load() and any sequence of assignments to its entries, each parameter has the value last assigned to it or, without one, its default. Reading any other name is a KeyError, but none of the names that the programs read can get lost. An assignment to a name that is not a parameter, such as a misspelt one, is accepted without notice and changes nothing that the programs read. CONFIG_COASTLINES is the only parameter that has no effect. The parameters are in the order of their names (so does print_cfg list them), followed by the names added, each once, in the order in which they were added.", "quantifier": "all sequences of assignments and all names", "why_tests_cant": "All histories of changes of a dictionary; misspelt names are not reported.", "anchors": ["pyowc/configuration.py:load", "pyowc/configuration.py:print_cfg", "pyowc/calibration.py:update_salinity_mapping"]}
{"id": "C167", "title": "Runs with the configuration as it is loaded", "statement": "If only paths, formats, THETA_BOUNDS and unknown names of the configuration are changed, update_salinity_mapping works with at most 300 casts, without potential vorticity and the Subantarctic Front, with scales of 8 and 4 degrees of longitude, 4 and 2 degrees of latitude and 20 and 10 years, from 100 dbar on and with reference data within 250 dbar. No setting can then make a run fail: it ends normally exactly if the conditions of C163 on its input files hold (for at most 300 casts in the ellipse), and if the reference data have no defects in the sense of C165 (for any number).", "quantifier": "all such changes, and all runs over any number of profiles, reference files, topographies, random numbers and sorts", "why_tests_cant": "All changes and all input files.", "anchors": ["pyowc/configuration.py:load", "pyowc/calibration.py:update_salinity_mapping"]}
{"id": "C168", "title": "Which exception a run ends with", "statement": "In the situation of C163, with the complete table of boxes and longitudes between -10 and 370, a run that does not end normally raises the exception of the first profile, in the order of the source file, for which the conditions of C163 do not hold: ValueError if there are no casts in the boxes around it, a cast there has no position, the first cast in the ellipse has no level down to the deepest pressure wanted, no cast in the ellipse has a complete level, or the temperatures of the casts do not allow the interpolation; RuntimeError if there are casts, all with positions, but none in the ellipse; LinAlgError if everything else holds and the noise variance is zero at a level that is mapped. If the conditions hold for every profile and no level is mapped, it is NameError. No other exception is possible.", "quantifier": "all runs over any number of profiles and levels, reference files, topographies, configurations, random numbers and sorts", "why_tests_cant": "All files and all positions of the failing profile; later profiles may fail in another way.", "anchors": ["pyowc/calibration.py:update_salinity_mapping", "pyowc/data/fetchers.py:get_region_hist_locations", "pyowc/data/fetchers.py:get_region_data", "pyowc/data/wrangling.py:interp_climatology", "pyowc/core/stats.py:noise_variance", "pyowc/data/wrangling.py:map_data_grid"]}
{"id": "C169", "title": "The value at a level does not depend on the other levels of the profile", "statement": "If the Subantarctic Front is left out of account, the five numbers that update_salinity_mapping saves for a level depend on the profile only by its position, date and deepest pressure, on the pressure and potential temperature of this level and on whether a salinity was measured there. Levels can be added, removed, changed or renumbered in a source file without any effect on the values at the other levels, as long as the deepest pressure stays the same, the profile still counts as one with a position and a pressure below its first level, and both runs end normally (no mapped file present, numbers of profiles ascending).", "quantifier": "all pairs of runs with the same reference data and configuration, all pairs of profiles and levels in them", "why_tests_cant": "All ways to change the other levels; the arrays that the interpolation reuses from level to level must never carry a value over.", "anchors": ["pyowc/calibration.py:update_salinity_mapping", "pyowc/data/wrangling.py:interp_climatology", "pyowc/data/fetchers.py:get_region_data", "pyowc/helper.py:process_profile_hist_variables"]}
{"id": "C170", "title": "When the covariance of the observations is symmetric", "statement": "The matrix that build_cov returns is symmetric exactly if two conditions hold. Looking down from a level to a deeper one, every profile has the same scaled difference of temperature (the difference over the scale that the table for looking down gives at the upper level) as every profile, itself included, looking up (the scale that the table for looking up gives at the deeper level); a missing temperature counts as no difference. And, if the potential vorticity is used, all profiles are on the equator or none is.", "quantifier": "all numbers of profiles and levels (at least one level), temperatures, positions and scales with which the call succeeds", "why_tests_cant": "An equivalence over real temperatures and positions; the asymmetric cases depend on breaks of two tables.", "anchors": ["pyowc/core/stats.py:build_cov", "pyowc/core/stats.py:covarxy_pv"]}
{"id": "C171", "title": "What MAP_P_EXCLUDE does", "statement": "If MAP_P_EXCLUDE is raised, update_salinity_mapping (no mapped file present, numbers of profiles ascending) saves missing values at all pressures below the new limit and exactly the values it saved before at all other levels. A run that ended normally before still does, unless no value is left: then it ends with a NameError.", "quantifier": "all runs that end normally, over any number of profiles and levels, and all higher limits", "why_tests_cant": "All input files and limits; a limit must not influence the choice of casts or the values at other levels.", "anchors": ["pyowc/calibration.py:update_salinity_mapping"]}
{"id": "C172", "title": "Settings without effect", "statement": "Without MAP_USE_PV, update_salinity_mapping does the same whatever MAPSCALE_PHI_LARGE and MAPSCALE_PHI_SMALL are. It also does the same for all values of MAX_CASTS that are at least the number of reference casts in the ellipse around each profile. The same means: it ends with the same exception, or normally in both cases; it writes a file in both cases or in neither; and the two files differ at most in the settings they record. This holds with and without an existing mapped file, and with and without MAP_USE_SAF.", "quantifier": "all runs over any number of profiles and levels, all file systems, reference data, topographies, random numbers and sorts, all values of the three settings", "why_tests_cant": "All values of the settings, and all runs, also those that fail; the settings pass through the choice of casts and both stages of the mapping.", "anchors": ["pyowc/calibration.py:update_salinity_mapping", "pyowc/core/finders.py:find_besthist", "pyowc/core/finders.py:find_ellipse", "pyowc/utilities.py:spatial_correlation", "pyowc/core/stats.py:covar_xyt_pv"]}
{"id": "C173", "title": "How large a saved mapping error can be", "statement": "Wherever update_salinity_mapping saves a mapping error e, it saves a positive variance nv of the noise and a variance V of the signal for that level too, and the error is positive and limited by them: its square is at most 4 V + 2 nv and at least 2 nv / MAX_CASTS. (A run that ends normally with no mapped file present, with or without MAP_USE_SAF, MAX_CASTS = 3 or at least 5, scales not zero, positions in range.) The reason for the first limit is that the residuals of the first stage at the casts sum to zero and have a variance of at most V.", "quantifier": "all runs that end normally, all profiles and levels in them, all reference data and configurations within the stated ranges", "why_tests_cant": "An inequality over all positions, scales and salinities; two inverses of covariance matrices of any size lie between the inputs and the saved numbers.", "anchors": ["pyowc/calibration.py:update_salinity_mapping", "pyowc/data/wrangling.py:map_data_grid", "pyowc/core/stats.py:covar_xyt_pv", "pyowc/core/finders.py:find_besthist"]}
{"id": "C174", "title": "When MAP_USE_SAF changes nothing", "statement": "update_salinity_mapping does the same whatever MAP_USE_SAF is, if each profile with a position and a pressure below its first level is at or north of 30 S, or has increasing pressures and does not cross 300 dbar (with at least three levels), or has increasing pressures, a temperature of 3 to 5 degrees at 300 dbar and is not inside exactly one of the two envelopes. The same means as in C172: the same exception or both runs end normally, and the files differ at most in the settings they record. It holds with and without an existing mapped file.", "quantifier": "all runs over any number of profiles and levels, all file systems, reference data, topographies, configurations, random numbers and sorts", "why_tests_cant": "All runs, also those that fail; the criterion shortens the array of depths even when it keeps every cast.", "anchors": ["pyowc/calibration.py:update_salinity_mapping", "pyowc/data/fetchers.py:frontal_constraint_saf", "pyowc/helper.py:process_profile_hist_variables"]}
{"id": "C175", "title": "Which levels get a value, and that wider settings lose none", "statement": "In the situation of C163, a run that ends normally saves a signal variance for exactly those levels of profiles with a position and a pressure below their first level that have a salinity and a pressure of at least MAP_P_EXCLUDE, and whose temperature more than five casts in the ellipse meet less than MAP_P_DELTA from that pressure (each at its place nearest to it). If MAP_P_DELTA or the large scales of latitude and longitude are raised or MAP_P_EXCLUDE is lowered, whatever happens to the scales of time and the small scales, and the run still ends normally, no level loses its value (the casts list their levels downwards, and there are still not more of them in the ellipse than MAX_CASTS).", "quantifier": "all runs over any number of profiles and levels, reference files, topographies, configurations, random numbers and sorts, all pairs of configurations", "why_tests_cant": "All casts and all pairs of configurations; a larger limit also reads the casts further down, which can change the place where a cast meets the temperature.", "anchors": ["pyowc/calibration.py:update_salinity_mapping", "pyowc/helper.py:process_profile_hist_variables", "pyowc/data/wrangling.py:interp_climatology", "pyowc/data/fetchers.py:get_region_data"]}
{"id": "C176", "title": "When random numbers have no influence", "statement": "If no profile has more reference casts in the ellipse (that of longitude and latitude) around it than MAX_CASTS, update_salinity_mapping does exactly the same whatever random numbers numpy draws, with the same exception or the same files after it. It also does the same for every other MAX_CASTS that is not less than these numbers of casts, apart from the settings it records. Other than in C172 this includes runs with MAP_USE_PV.", "quantifier": "all runs over any number of profiles and levels, all file systems, reference data, topographies, configurations and sorts, all pairs of sources of random numbers", "why_tests_cant": "All sequences of random numbers, which differ between versions of numpy; a test sees the one of the installed version.", "anchors": ["pyowc/calibration.py:update_salinity_mapping", "pyowc/core/finders.py:find_besthist", "pyowc/core/finders.py:find_ellipse"]}
{"id": "C177", "title": "Which casts the random numbers choose", "statement": "If the ellipse holds n casts, more than MAX_CASTS, the casts that find_besthist returns first are exactly those picked by the numbers u it draws, in the order of the files: u picks the cast whose number, counted from 0, is nearest to u n - 1 (of two equally near ones the even one), and the first cast if that is -1. Hence no cast in the ellipse is excluded from the choice (MAX_CASTS 3 or at least 5). But the choice is not even: for draws spread evenly over 0 to 1, one draw picks the first of the casts with probability 3 / (2 n), the last with 1 / (2 n) and each other one with 1 / n.", "quantifier": "all sets of casts, arguments, sorts and sequences of draws in [0, 1), all numbers of casts", "why_tests_cant": "All sequences of draws and numbers of casts; a probability cannot be read off from the one seeded sequence that a test sees.", "anchors": ["pyowc/core/finders.py:find_besthist"]}
{"id": "C178", "title": "The closest third is always chosen", "statement": "Without MAP_USE_PV (MAX_CASTS 3 or at least 5), find_besthist always returns a cast in the ellipse if fewer than a third of MAX_CASTS (rounded up) other casts in the ellipse are at least as close to the float, measured with the large scales of longitude, latitude and time. No random draw and no order of ties can make the mapping lose such a cast.", "quantifier": "all sets of casts with missing values, arguments, sorts and sequences of draws in [0, 1)", "why_tests_cant": "All sequences of draws and all orders of ties of an unstable sort.", "anchors": ["pyowc/core/finders.py:find_besthist", "pyowc/utilities.py:spatial_correlation"]}
{"id": "C179", "title": "A larger ellipse loses no cast", "statement": "If the large scales of longitude, latitude and potential vorticity are kept or raised, or MAP_USE_PV is switched off, find_besthist returns every cast it returned before, and does not start to fail, provided that MAX_CASTS is at least the number of casts in the new ellipse. This holds whatever the scales of time and the small scales, before and after, and also if casts were chosen at random before.", "quantifier": "all sets of casts with missing values, all pairs of arguments, all sorts and sequences of draws in [0, 1)", "why_tests_cant": "All pairs of settings and all casts; with the potential vorticity a cast may leave the ellipse in one direction only.", "anchors": ["pyowc/core/finders.py:find_besthist", "pyowc/core/finders.py:find_ellipse"]}
{"id": "C180", "title": "A saved value needs more than five casts in reach", "statement": "Whatever MAP_USE_PV, MAP_USE_SAF and MAX_CASTS are and whatever random numbers are drawn: a run of update_salinity_mapping that ends normally (no mapped file present, numbers of profiles ascending) saves a number for a level, in any of the five matrices, only if the profile has a position and a pressure below its first level, the level has a salinity and a pressure of at least MAP_P_EXCLUDE, and the temperature of the level is met less than MAP_P_DELTA from that pressure by more than five different casts in the ellipse of longitude and latitude around the profile. Other than in C175 this holds for all settings, but only in this direction.", "quantifier": "all runs that end normally, over any number of profiles and levels, reference files, topographies, configurations with scales that are not zero, random numbers and sorts", "why_tests_cant": "All input files, settings and random choices; a cast that is read twice must not count twice.", "anchors": ["pyowc/calibration.py:update_salinity_mapping", "pyowc/core/finders.py:find_besthist", "pyowc/data/fetchers.py:get_region_data", "pyowc/data/fetchers.py:frontal_constraint_saf", "pyowc/helper.py:process_profile_hist_variables"]}
{"id": "C181", "title": "The constraints on the casts give no level a value", "statement": "If update_salinity_mapping ends normally with some MAP_USE_PV, MAP_USE_SAF and MAX_CASTS, and also with MAP_USE_PV and MAP_USE_SAF off and a MAX_CASTS that is at least the number of casts in the ellipse around each profile, then every level for which the first run saves a number has a signal variance in the second. So these constraints may take values away from levels, but never give one to a level (no mapped file present, numbers of profiles ascending, positions in range).", "quantifier": "all pairs of such runs over any number of profiles and levels, reference files, topographies, configurations, random numbers and sorts", "why_tests_cant": "All input files and random choices; two runs with different casts are compared level by level.", "anchors": ["pyowc/calibration.py:update_salinity_mapping", "pyowc/core/finders.py:find_besthist", "pyowc/data/fetchers.py:frontal_constraint_saf"]}
{"id": "C182", "title": "The selected historical points of a run", "statement": "A run of update_salinity_mapping that ends normally without an earlier mapped file saves at least one point in selected_hist. No two of the saved points are within 1/60 degree of each other in both longitude and latitude. Every cast used for any level of any profile is within 1/60 degree of a saved point in both. Every saved point is the position of a cast used for a level of the profile whose number is saved with it. The sorting before the file is written keeps all of this.", "quantifier": "all runs that end normally, over any number of profiles and levels, input files and settings", "why_tests_cant": "An invariant over all levels of all profiles, and over the sorting at the end.", "anchors": ["pyowc/calibration.py:update_salinity_mapping", "pyowc/helper.py:selected_historical_points"]}
{"id": "C183", "title": "Selected points lie in reach of their profile", "statement": "After a run of update_salinity_mapping that ends normally without an earlier mapped file, every point in selected_hist is the position of a reference cast in the files around a profile, the profile is the one whose number is saved with the point, it has a position, and the cast lies in the ellipse of longitude and latitude around it. The latitude is that of the cast, the longitude is that of the cast plus whole turns. This holds for all settings of MAP_USE_PV, MAP_USE_SAF and MAX_CASTS and all random numbers.", "quantifier": "all runs that end normally, over any number of profiles and levels, reference files, topographies, configurations with scales that are not zero, random numbers and sorts", "why_tests_cant": "All input files, settings and random choices; positions pass through five selections and a sort with separate arrays for longitude and latitude.", "anchors": ["pyowc/calibration.py:update_salinity_mapping", "pyowc/helper.py:selected_historical_points", "pyowc/helper.py:process_profile_hist_variables", "pyowc/helper.py:remove_statical_outliers", "pyowc/core/finders.py:find_besthist"]}
