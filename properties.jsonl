{"id": "C01", "title": "Only physically valid observations are used", "statement": "For every pixel series handed to cold_detect, obcold_reconstruct or sccd_detect, an observation is usable iff its blue value lies strictly between -200 and 10000, every other reflectance strictly between 0 and 10000, its thermal value (taken as in range when b_c2 is set or the thermal value is 0, otherwise buf*10-27320) strictly between -9320 and 7070, and its QA is not fill; the reported clear, water, shadow, snow and cloud totals are exactly the number of observations with those QA codes, with water also counted as clear.", "quantifier": "all series lengths, all integer band values, all QA arrays", "why_tests_cant": "The filter is a conjunction of 14 strict boundary comparisons over unbounded integers plus a fold over a series of any length.", "anchors": ["src/cxx/utilities.c:preprocessing"]}
{"id": "C02", "title": "An unknown QA code is rejected, and nothing else is", "statement": "cold_detect/sccd_detect report an error from QA screening iff some observation carries a QA value outside {0,1,2,3,4,255}; where in the series it occurs does not matter.", "quantifier": "all QA arrays of any length", "why_tests_cant": "The offending value can appear at any position of a series of any length; absence of other failure causes is a universal statement.", "anchors": ["src/cxx/utilities.c:preprocessing", "src/cxx/cold.c:cold", "src/cxx/s_ccd.c:sccd"]}
{"id": "C03", "title": "Out-of-order dates are refused by COLD", "statement": "cold_detect and obcold_reconstruct refuse (non-success status, RuntimeError) every series containing two observations at any distance whose dates are in descending order, and never refuse a non-descending series for that reason; the S-CCD entry point performs no such check.", "quantifier": "all date arrays of any length", "why_tests_cant": "The code only compares neighbours; that this excludes every inversion is an inductive fact.", "anchors": ["src/cxx/cold.c:cold", "src/cxx/cold.c:obcold_reconstruction_procedure", "src/cxx/s_ccd.c:sccd"]}
{"id": "C04", "title": "Clear-observation extraction", "statement": "The observations that COLD fits are exactly the usable clear/water observations of the input, in input order, with for each run of equal dates only the first kept; the resulting dates are strictly increasing and every kept observation carries its own band values.", "quantifier": "all non-descending series of any length", "why_tests_cant": "Requires the claim at every position for every interleaving of clear, cloudy, invalid and duplicate-date observations.", "anchors": ["src/cxx/cold.c:stand_procedure", "src/cxx/misc.c:matlab_unique"]}
{"id": "C05", "title": "COLD terminates on every input", "statement": "For every pixel series, every parameter setting and every outcome of the numerical tests (fits, RMSE, change tests), cold_detect's detection loop terminates; with n clear observations it runs exactly max(0, n-conse-11) iterations.", "quantifier": "all series, all conse, all possible outcomes of the floating-point tests at every step", "why_tests_cant": "The loop index moves backwards when noise is removed, so termination depends on an invariant over unboundedly many histories of removals.", "anchors": ["src/cxx/cold.c:stand_procedure"]}
{"id": "C06", "title": "COLD never reads observations outside the series", "statement": "During detection every access to the clear-observation arrays uses an index between 0 and the current number of remaining observations minus one, whatever the outcome of the numerical tests; accesses that would fall outside are reported as a distinct outcome in the model and shown unreachable.", "quantifier": "all series with at least 24 clear observations, all test outcomes, all conse", "why_tests_cant": "Out-of-bounds reads in C are silent; only a proof over all histories excludes them.", "anchors": ["src/cxx/cold.c:stand_procedure"]}
{"id": "C07", "title": "COLD segments are chronologically ordered and disjoint", "statement": "For every result of cold_detect, every segment satisfies t_start <= t_end, t_end < t_break when t_break is non-zero, and t_break (or t_end) <= t_start of the next segment; so any day belongs to at most one segment and breaks are strictly increasing.", "quantifier": "all series, all conse, all outcomes of the numerical tests", "why_tests_cant": "Each segment is assembled from indices changed by training, look-back, noise removal and refits; ordering is an invariant of the entire history.", "anchors": ["src/cxx/cold.c:stand_procedure"]}
{"id": "C08", "title": "Segment dates are observation dates", "statement": "Every t_start, t_end and non-zero t_break reported by cold_detect is the date of a usable clear observation of the input series.", "quantifier": "all series, all outcomes of the numerical tests", "why_tests_cant": "Requires tracking that noise removal never fabricates a date, over all histories.", "anchors": ["src/cxx/cold.c:stand_procedure"]}
{"id": "C09", "title": "Meaning of category and change probability", "statement": "Every segment from COLD's standard procedure has category 4, 6, 8 (normal), 14 (start of series) or 24 (end of series); change_prob is between 0 and 100; change_prob is 100 exactly for segments closed by a confirmed break, and every segment except possibly the last has change_prob 100 and a non-zero t_break.", "quantifier": "all series, conse >= 1, all outcomes of the numerical tests", "why_tests_cant": "change_prob is computed by integer division on a scan of the last conse observations; the equivalence with 'confirmed' must hold for all values.", "anchors": ["src/cxx/cold.c:stand_procedure", "src/cxx/output.h:Output_t"]}
{"id": "C10", "title": "num_obs is the number of observations fitted", "statement": "For every segment, num_obs equals the number of observations used to fit the segment's model. (Holds for normal and end segments at the time of the fit; false for start-of-series segments and for obcold segments, which report one more.)", "quantifier": "all series, all outcomes of the numerical tests", "why_tests_cant": "Off-by-one in a field is invisible unless checked against the fitted set in every branch.", "anchors": ["src/cxx/cold.c:stand_procedure", "src/cxx/cold.c:obcold_reconstruction_procedure"]}
{"id": "C11", "title": "The result buffer is never overrun", "statement": "cold_detect writes at most the 40 records that the caller allocates. (Proved under a bound on the clear-observation span/count; the general statement fails: the C code then reallocates caller-owned memory.)", "quantifier": "all series, all outcomes of the numerical tests", "why_tests_cant": "The number of breaks depends on data over decades; a bound is an invariant linking breaks to elapsed observations.", "anchors": ["src/cxx/cold.c:stand_procedure", "src/python/pycold/_colds_cython.pyx:_cold_detect"]}
{"id": "C12", "title": "Model complexity never exceeds the data", "statement": "The number of harmonic coefficients chosen for a fit is always 4, 6 or 8, is non-decreasing in the number of observations, never exceeds the requested maximum, and a fit with more than 4 coefficients always has at least 3 observations per coefficient.", "quantifier": "all observation counts and all requested maxima", "why_tests_cant": "Arithmetic over all counts.", "anchors": ["src/cxx/misc.c:update_cft"]}
{"id": "C13", "title": "Sorting helpers sort, permute and stay in bounds", "statement": "The integer/float quicksort used for dates, medians and thresholds terminates, returns a non-descending permutation of its input, leaves elements outside the requested range untouched, and never touches an index outside the array, for every array.", "quantifier": "all arrays of any length, all index ranges", "why_tests_cant": "Hoare partition loops have classic boundary bugs triggered only by special inputs.", "anchors": ["src/cxx/utilities.c:partition", "src/cxx/utilities.c:quick_sort", "src/cxx/misc.c:quick_sort_int", "src/cxx/misc.c:quick_sort_float"]}
{"id": "C14", "title": "Sorting several arrays together keeps rows paired", "statement": "Sorting a key array with companion arrays (scene names, reflectance bands, coefficient positions) yields a permutation of the original rows: every key keeps its companions.", "quantifier": "all key arrays and companion arrays of equal length", "why_tests_cant": "Pairing must hold for every permutation induced by data.", "anchors": ["src/cxx/utilities.c:partition_index", "src/cxx/utilities.c:quick_sort_index", "src/cxx/misc.c:partition_2d_float", "src/cxx/misc.c:quick_sort_2d_float", "src/cxx/utilities.c:quick_sort"]}
{"id": "C15", "title": "LASSO coefficients reach the right slots", "statement": "When the solver returns nin active variables with 1-based positions ia and compressed coefficients ca, the expanded coefficient vector holds ca[k] at position ia[k]-1 for every k and zero elsewhere, whatever order the solver activated them in.", "quantifier": "all activation orders, all numbers of active variables", "why_tests_cant": "Depends on a sort by index carrying a permutation.", "anchors": ["src/cxx/misc.c:c_glmnet"]}
{"id": "C16", "title": "Medians are medians", "statement": "The median routines return, for every non-empty array, the middle element of the sorted data (odd length) or the mean of the two middle elements (even length); at least half of the data is <= it and at least half >= it.", "quantifier": "all arrays of any length", "why_tests_cant": "Index arithmetic on sorted data over all lengths/parities.", "anchors": ["src/cxx/misc.c:matlab_2d_float_median", "src/cxx/misc.c:matlab_float_2d_partial_median", "src/cxx/misc.c:adjust_median_variogram"]}
{"id": "C17", "title": "Nearest-date lookup", "statement": "Looking up a break date in the clear dates returns an in-range index whose date is at minimal distance from the requested date among the searched dates, and an exact match whenever one exists.", "quantifier": "all date arrays of length >= 1 whose distances are below 9999999", "why_tests_cant": "A minimality claim over all entries.", "anchors": ["src/cxx/utilities.c:find_index_clrx"]}
{"id": "C18", "title": "Ordinal dates agree with the Gregorian calendar", "statement": "convert_year_doy_to_ordinal(year, doy) equals the proleptic Gregorian ordinal (as Python's date.toordinal) for every year after 1973 and every day of year; years before 1973 are refused. (For 1973 itself the C code accumulates onto an uninitialised variable: the property is refuted there.)", "quantifier": "all years, all days of year", "why_tests_cant": "Sum over leap years for all years.", "anchors": ["src/cxx/input.c:convert_year_doy_to_ordinal", "src/cxx/input.c:is_leap_year"]}
{"id": "C19", "title": "Date conversion round trip", "statement": "Converting (year, doy) to an ordinal date and back returns the same year and doy, and converting any ordinal after 1973 to (year, doy) and back returns the same ordinal; the year/doy produced is always a valid calendar day.", "quantifier": "all ordinals from 720259 (1974 for the outward leg), all valid (year, doy)", "why_tests_cant": "A loop subtracting year lengths must invert a loop adding them, for all dates.", "anchors": ["src/cxx/output.c:convert_jday_to_year_doy_from_0001", "src/cxx/input.c:convert_year_doy_to_ordinal"]}
{"id": "C20", "title": "Month/day to day-of-year conversion", "statement": "For every year and month, yearmonth2doy returns the day-of-year of that month/day in the Gregorian calendar.", "quantifier": "all years, months 1..12, days", "why_tests_cant": "Case table must be right for both leap and common years.", "anchors": ["src/cxx/misc.c:yearmonth2doy"]}
{"id": "C21", "title": "Change-magnitude outputs stay in their slots", "statement": "For every recorded change magnitude the output slot used is (date - starting_date)/interval, it lies inside the caller's CM arrays whenever the arrays were sized as cold_detect sizes them, and a slot ends up holding the value clamped to the short range, with -9999 meaning no value.", "quantifier": "all dates within the series, all intervals >= 1, all starting dates <= first date", "why_tests_cant": "Buffer sizing is done in Python with ceil and used in C with integer division.", "anchors": ["src/python/pycold/_colds_cython.pyx:_cold_detect", "src/cxx/cold.c:stand_procedure", "src/python/pycold/imagetool/tile_processing.py:reading_start_dates_nmaps"]}
{"id": "C22", "title": "Fallback procedure keeps observations intact", "statement": "When there are too few clear observations, the fallback fit uses (date, value) pairs that occurred in the input. (Refuted: the in-place compaction runs once per band over already compacted dates, and the green band is sorted on its own, so dates and values are mispaired.)", "quantifier": "all inputs reaching the fallback", "why_tests_cant": "Mispairing corrupts fits silently.", "anchors": ["src/cxx/cold.c:inefficientobs_procedure"]}
{"id": "C23", "title": "Object-based reconstruction honours the supplied breaks", "statement": "obcold_reconstruct produces at most one segment per accepted break plus one, in chronological order; accepted breaks are positive and at least 365.25 days apart; every segment spans at least 6 observations; the last segment reports no break.", "quantifier": "all break-date arrays, all clear series, all numerical outcomes", "why_tests_cant": "Greedy filtering plus nearest-index lookup over arbitrary arrays.", "anchors": ["src/cxx/cold.c:obcold_reconstruction_procedure"]}
{"id": "C24", "title": "S-CCD processing terminates and consumes every observation", "statement": "For every input and every outcome of the numerical tests, S-CCD's loop terminates and ends with exactly conse unprocessed trailing observations (or all, if fewer), each earlier observation having been either fitted/filtered, removed as noise, or left before the training window.", "quantifier": "all series, all conse in 1..8, all outcomes of the numerical tests", "why_tests_cant": "Noise removal shortens the series while the index moves.", "anchors": ["src/cxx/s_ccd.c:sccd_standard", "src/cxx/s_ccd.c:step1_cold_initialize", "src/cxx/s_ccd.c:step2_KF_ChangeDetection"]}
{"id": "C25", "title": "The near-real-time mode state machine is closed", "statement": "Every nrt_mode that sccd_detect, sccd_update and sccd_identify can produce is accepted as input by the next sccd_update, for any sequence of calls; a pixel never returns to void once it has data, and the model/queue contents returned are those that the mode promises.", "quantifier": "all sequences of detect/update/identify calls, all data", "why_tests_cant": "A reachability statement over unbounded call sequences.", "anchors": ["src/cxx/s_ccd.c:sccd", "src/cxx/s_ccd.c:sccd_standard", "src/cxx/s_ccd.c:sccd_snow", "src/python/pycold/_colds_cython.pyx:_sccd_update", "src/python/pycold/colds.py:sccd_identify"]}
{"id": "C26", "title": "Updating equals re-running", "statement": "Feeding observations to sccd_update in any batching is equivalent to one run: while the pixel is in monitor mode, the stored tail observations are exactly the conse unprocessed ones, so the following update continues from the same observations. (Holds for conse = 8; refuted for conse < 8, where zero padding is reloaded as observations dated 1982-07-16.)", "quantifier": "all batchings of all series", "why_tests_cant": "Quantifies over all ways to cut a stream.", "anchors": ["src/cxx/s_ccd.c:sccd", "src/cxx/s_ccd.c:step3_processing_end"]}
{"id": "C27", "title": "Queue mode loses nothing", "statement": "When a pixel is in queue mode, every unprocessed clear observation is present in the returned queue, in order. (Refuted when there are more than 240: the newest one is dropped and an older one kept.)", "quantifier": "all queue lengths", "why_tests_cant": "The defect needs more than 240 queued observations.", "anchors": ["src/cxx/s_ccd.c:step3_processing_end"]}
{"id": "C28", "title": "An update without new usable observations changes nothing", "statement": "sccd_update called with no usable new observation returns the previous mode, model and queue.", "quantifier": "all states, all batches without usable observations", "why_tests_cant": "Quantifies over all states and batches.", "anchors": ["src/cxx/s_ccd.c:sccd", "src/python/pycold/_colds_cython.pyx:_sccd_update"]}
{"id": "C29", "title": "Stored dates survive the 16-bit encoding", "statement": "A date stored in nrt_model or nrt_queue as a 16-bit offset from 1982-07-16 is recovered exactly iff it lies within -32768..32767 days of it.", "quantifier": "all integer dates", "why_tests_cant": "Wrap-around happens only outside the tested range.", "anchors": ["src/cxx/s_ccd.c:step3_processing_end", "src/cxx/s_ccd.c:sccd"]}
{"id": "C30", "title": "S-CCD results are packed as the mode says", "statement": "sccd_detect/sccd_update return a model iff the mode's unit digit is 1, 3 or 5, and a queue iff it is 2, 4 or 5; parameters conse > 8 and spans below a year are refused with an error.", "quantifier": "all modes, all result sizes", "why_tests_cant": "Dispatch must be total over modes the C code can produce.", "anchors": ["src/python/pycold/_colds_cython.pyx:_sccd_detect", "src/python/pycold/_colds_cython.pyx:_sccd_update"]}
{"id": "C31", "title": "Persistent-snow pixels", "statement": "In snow mode every usable clear or snow observation is kept: below 18 observations they are all queued, otherwise a model is fitted and num_obs counts every observation ever received.", "quantifier": "all sequences of updates", "why_tests_cant": "A counting invariant over unbounded update sequences.", "anchors": ["src/cxx/s_ccd.c:sccd_snow"]}
{"id": "C32", "title": "State-space and harmonic models are the same curve", "statement": "Converting harmonic coefficients at a day into the filter state and back returns the same coefficients (over the reals); the filter's predicted observation equals the harmonic prediction at that day; advancing the filter one day equals re-expressing the same harmonic curve one day later.", "quantifier": "all real coefficients, all days", "why_tests_cant": "Identities over all real coefficients and days.", "anchors": ["src/cxx/KFAS.c:fit_cft2vec_a", "src/cxx/KFAS.c:vec_a2fit_cft", "src/cxx/KFAS.c:initialize_ssmconstants"]}
{"id": "C33", "title": "Filter covariance stays a covariance", "statement": "Starting from a symmetric positive semi-definite covariance, any sequence of prediction (missing-observation) and update steps keeps it symmetric and positive semi-definite (over the reals).", "quantifier": "all sequences of steps, all innovations variances above tolerance", "why_tests_cant": "An invariant over unbounded step sequences.", "anchors": ["src/cxx/s_ccd.c:KF_ts_predict_conse", "src/cxx/KFAS.c:filter1step_missingobs", "src/cxx/KFAS.c:filter1step_validobs"]}
{"id": "C34", "title": "Pixel and block numbering is a bijection", "statement": "Within a tile, (block, position in block) and (row, column) correspond one to one: get_rowcol_intile and get_id_inblock are inverse, block ids map one to one to block coordinates, and the 'pos' stored in records identifies the pixel uniquely.", "quantifier": "all tile sizes divisible by the block grid, all positions", "why_tests_cant": "Integer division/modulo over all grid shapes.", "anchors": ["src/python/pycold/utils.py:get_rowcol_intile", "src/python/pycold/utils.py:get_id_inblock", "src/python/pycold/utils.py:get_block_x", "src/python/pycold/utils.py:get_block_y", "src/python/pycold/utils.py:get_col_index", "src/python/pycold/utils.py:get_row_index"]}
{"id": "C35", "title": "Tile assembly puts every block in its place", "statement": "Assembling per-block maps (assemble_array, change-map export, CM maps) puts pixel (r,c) of block (bx,by) at row (by-1)*height+r, column (bx-1)*width+c. (Holds when the grid has as many block columns as block rows; refuted otherwise.)", "quantifier": "all grid shapes and block sizes", "why_tests_cant": "The defect only shows on non-square grids.", "anchors": ["src/python/pycold/utils.py:assemble_array", "src/python/pycold/utils.py:assemble_cmmaps", "src/python/pycold/imagetool/export_change_map.py:main"]}
{"id": "C36", "title": "Blocks are shared out without gaps or overlap", "statement": "With ranks 1..n_cores, the tile-processing loop gives every block to exactly one rank. (With the command-line default rank 0 it is refuted: the last block is never processed.)", "quantifier": "all block counts, all numbers of cores", "why_tests_cant": "A partition statement over all sizes.", "anchors": ["src/python/pycold/imagetool/tile_processing.py:main", "src/python/pycold/imagetool/export_change_map.py:main"]}
{"id": "C37", "title": "Restart after a crash neither loses nor corrupts blocks", "statement": "A block marked finished always has its complete result files; after any number of crashes at any point, one complete rerun yields results for all blocks equal to those of an uninterrupted run.", "quantifier": "all crash points, all numbers of crashes, all block counts", "why_tests_cant": "Quantifies over every crash point and history.", "anchors": ["src/python/pycold/imagetool/tile_processing.py:main", "src/python/pycold/imagetool/tile_processing.py:is_finished_cold_blockfinished"]}
{"id": "C38", "title": "OBCOLD stages do not deadlock", "statement": "In OBCOLD mode all ranks pass the assembly barrier. (Refuted for fewer than 16 cores: only rank 16 assembles the date maps, so every rank waits forever; proved for 16 or more.)", "quantifier": "all core counts, all schedules", "why_tests_cant": "A liveness statement over schedules.", "anchors": ["src/python/pycold/imagetool/tile_processing.py:main", "src/python/pycold/imagetool/tile_processing.py:is_finished_assemble_cmmaps"]}
{"id": "C39", "title": "Segmentation labels are unique per region", "statement": "Every flood-filled region gets a label no other region has, whatever the number of seeds, and a pixel keeps the label of the first region that reached it.", "quantifier": "all numbers of seeds, all images", "why_tests_cant": "Labels are encoded modulo 255 across passes; uniqueness must hold for all counts.", "anchors": ["src/python/pycold/ob_analyst.py:segmentation_floodfill"]}
{"id": "C40", "title": "Object change decision is monotone and decides the change map", "statement": "If an object of given size and class is flagged as change at some average change magnitude, it is flagged at any larger magnitude (with slopes that are not negative, as shipped). The change map flags exactly the pixels whose object has a mean magnitude that exceeds the threshold of the object's most frequent class, scaled by the size of the patch of connected objects; pixels without an object are never flagged.", "quantifier": "all images, sizes, magnitudes, classes, thresholds", "why_tests_cant": "Monotonicity over real values; grouping and statistics over objects of any number and shape.", "anchors": ["src/python/pycold/ob_analyst.py:is_change_object", "src/python/pycold/ob_analyst.py:object_analysis", "src/python/pycold/ob_analyst.py:modeby"]}
{"id": "C41", "title": "sccd_identify reports only genuine candidate disturbances", "statement": "sccd_identify returns a date iff the pixel is in a monitor/queue mode not already flagged, the trailing anomaly count reaches dist_conse, the normalised magnitude and angle pass their thresholds, and the change is not greening; the date is that of the first anomalous observation. (Refuted for conse != 6: the offset is hard-coded to 6, so no conse is handled correctly by both sccd_update and sccd_identify.)", "quantifier": "all packs, all conse, all thresholds", "why_tests_cant": "The date offset error appears only for non-default conse.", "anchors": ["src/python/pycold/colds.py:sccd_identify", "src/python/pycold/colds.py:calculate_sccd_cm"]}
{"id": "C42", "title": "Parameter validation accepts exactly the documented ranges", "statement": "The public functions accept a parameter iff it has the documented type and lies in the documented interval, with the open or closed ends as documented; NaN is never accepted; band arrays must have equal lengths.", "quantifier": "all real/integer parameter values and lengths", "why_tests_cant": "Interval endpoints over an infinite domain.", "anchors": ["src/python/pycold/_param_validation.py:Interval", "src/python/pycold/_param_validation.py:check_consistent_length", "src/python/pycold/colds.py:_parameter_constraints"]}
{"id": "C43", "title": "2-D array blocks do not overlap", "statement": "allocate_2d_array gives each (row, column) a distinct cell of its own allocation: cells are disjoint from one another, from the header and from the row-pointer table, and lie inside the allocated block, whenever the number of elements fits an int and the number of bytes a size_t; values written to cells are read back until overwritten, whatever is done with other arrays; free releases every array once and refuses, changing nothing, a block that does not begin with the signature.", "quantifier": "all row counts, column counts and element sizes", "why_tests_cant": "Pointer arithmetic over all sizes.", "anchors": ["src/cxx/2d_array.c:allocate_2d_array", "src/cxx/2d_array.c:free_2d_array"]}
{"id": "C44", "title": "Scan-line reading addresses the right pixel", "statement": "Reading pixel (row, col) of a BIP image uses the byte offset of that pixel, distinct pixels use disjoint byte ranges, and the per-scanline buffers hold for every pixel exactly its valid scenes in order.", "quantifier": "all rows, columns, scene counts", "why_tests_cant": "Offset arithmetic over all sizes.", "anchors": ["src/cxx/input.c:read_bip", "src/cxx/input.c:read_bip_lines"]}
{"id": "C45", "title": "First degradation year", "statement": "The first-degradation query returns the year and day of the earliest record that meets the degradation test, and nothing if there is none.", "quantifier": "all record lists", "why_tests_cant": "A first-match claim over lists of any length.", "anchors": ["src/cxx/output.c:firstDegradationYear"]}
{"id": "C46", "title": "Feature extraction assigns every day to the right segment", "statement": "For ordered segments, extract_features uses for each day the unique segment whose [t_start, next t_start) contains it, and yields the fill value for days before the first segment and for the end day of the last one and after it (t_end in the classifier's function, 31 December of its year in the export's).", "quantifier": "all ordered segment lists, all day lists", "why_tests_cant": "Uniqueness over arbitrary lists.", "anchors": ["src/python/pycold/imagetool/export_change_map.py:extract_features"]}
{"id": "C47", "title": "Variogram lag never runs off the data", "statement": "For every series of at least two observations the variogram's date and band medians are computed inside the data and are the medians of the neighbouring differences; the date-gap adjusted variant finds, for every series in date order that spans more than 30 days, a lag inside the data with at least one pair left. (For a series within 30 days its search never ends: refuted there.)", "quantifier": "all date arrays", "why_tests_cant": "Lag search over arbitrary date spacing.", "anchors": ["src/cxx/misc.c:adjust_median_variogram"]}
{"id": "C48", "title": "Confirmed break test", "statement": "In COLD a break is confirmed at an observation iff each of the conse consecutive observations starting there exceeds the threshold and their mean angle is below the limit; the observation is removed as noise iff it is not a confirmed break and its own magnitude exceeds the outlier limit.", "quantifier": "all series and parameters, every round of monitoring and of the look-back, all magnitude vectors, all conse", "why_tests_cant": "Implemented through a running minimum; equivalence with 'all exceed' must hold for every vector.", "anchors": ["src/cxx/cold.c:stand_procedure"]}
{"id": "C49", "title": "Splitting a tile into blocks", "statement": "The object-analysis result of a tile is split into block files such that cell (r,c) of block (bx,by) is tile cell ((by-1)*height+r, (bx-1)*width+c), and nothing outside the tile is read, for every block grid.", "quantifier": "all grid shapes, block sizes and cells", "why_tests_cant": "The split uses raw memory strides; an out-of-bounds or misplaced read shows only for some shapes.", "anchors": ["src/python/pycold/ob_analyst.py:ObjectAnalystHPC.save_obiaresult"]}
{"id": "C50", "title": "A failing pixel does not shift the results of its neighbours", "statement": "While a tile is processed block by block, a pixel whose detection raises an exception leaves the results of all other pixels of the block unchanged and at their own positions; the process goes on to the next pixel.", "quantifier": "every block, every set of failing pixels, every kind of exception the code catches", "why_tests_cant": "tests cover blocks whose pixels all succeed; which pixel fails, and how, depends on the data", "anchors": ["src/python/pycold/imagetool/tile_processing.py: main"]}
{"id": "C51", "title": "Maps read by the object analysis are complete", "statement": "When the object analysis of OBCOLD reads a change-magnitude or date map of the tile, that map has been written completely, also when an earlier run was killed while writing it.", "quantifier": "every interleaving of the ranks, every kill point, every set of files left over", "why_tests_cant": "the window in which a map exists but is not complete is milliseconds long; no test schedules another rank, or a kill, into it", "anchors": ["src/python/pycold/imagetool/tile_processing.py:is_finished_assemble_cmmaps", "src/python/pycold/imagetool/tile_processing.py:main", "src/python/pycold/utils.py: assemble_cmmaps"]}
{"id": "C52", "title": "A killed OBCOLD run can be started again", "statement": "After all ranks of an OBCOLD tile run are killed at any point, starting them again finishes the run: no rank stops with an error and no rank waits for ever.", "quantifier": "every kill point of every interleaving, then every interleaving of the restarted ranks", "why_tests_cant": "needs a kill between two phases and a particular order of ranks afterwards", "anchors": ["src/python/pycold/imagetool/tile_processing.py: main", "src/python/pycold/pyclassifier.py:step3_classification", "src/python/pycold/pyclassifier.py:step4_assemble", "src/python/pycold/pyclassifier.py:_clean"]}
{"id": "C53", "title": "S-CCD never reads outside its observation arrays", "statement": "No call of sccd_detect, sccd_update or sccd_identify reads an observation before the first or after the last one. (Holds for conse up to 6; refuted for conse 7 and 8, where the first record of a series is computed from conse observations before it although only 6 need exist.)", "quantifier": "all series, all sequences of calls, all conse in 1..8, all outcomes of the numerical tests", "why_tests_cant": "the read before the array needs a first segment of exactly 6 or 7 observations and a non-default conse", "anchors": ["src/cxx/s_ccd.c:step1_cold_initialize", "src/cxx/s_ccd.c:step3_processing_end", "src/cxx/s_ccd.c:sccd"]}
{"id": "C54", "title": "S-CCD records describe the observations they were made from", "statement": "In every record S-CCD returns except possibly the first, num_obs is the number of observations used by its model (at least 18) and t_start is the date of the first of them; everything a record used lies before its break and nothing later does; every observation received is behind a record, behind the current model, still waiting, or was discarded as noise, in the order received. The first record may be an opening record (at least 6 observations) whose t_start is the very first observation of the series even if that one was not used.", "quantifier": "all series, all batchings, all outcomes of the numerical tests", "why_tests_cant": "a bookkeeping invariant through noise removal, look-back, storing and reloading over unbounded histories", "anchors": ["src/cxx/s_ccd.c:sccd_standard", "src/cxx/s_ccd.c:step1_cold_initialize", "src/cxx/s_ccd.c:step2_KF_ChangeDetection"]}
{"id": "C55", "title": "S-CCD's record buffer suffices for 40 years", "statement": "Any two breaks of a pixel are more than 365.25 days apart, so a series that spans no more than 40 years gives at most 40 records, the size of the buffer, which the code never checks: for one call of sccd_detect with any conse, and for any sequence of calls with conse = 8 (with a smaller conse stored models are corrupt, C26).", "quantifier": "all series, all sequences of calls, all outcomes of the numerical tests", "why_tests_cant": "needs a pixel that changes every year for 40 years", "anchors": ["src/cxx/s_ccd.c:sccd_standard", "src/python/pycold/_colds_cython.pyx:NUM_FC_SCCD"]}
{"id": "C56", "title": "Every S-CCD break is confirmed by conse observations", "statement": "For every break S-CCD reports (except that of the opening record), the conse consecutive observations from the break date on are all at or above the change threshold for the model of the closed segment, and their mean direction angle is within the limit; magnitudes are computed from exactly these.", "quantifier": "all series, all batchings, all outcomes of the numerical tests", "why_tests_cant": "a statement about every break of every series", "anchors": ["src/cxx/s_ccd.c:step2_KF_ChangeDetection"]}
{"id": "C57", "title": "The model kept with a confirmed change is the model of that change", "statement": "In mode 5 (change just confirmed) the returned model's first stored observation has the break date of the last record and its anomaly count is conse, so with conse = 6 sccd_identify returns exactly the break date of the last record.", "quantifier": "all sequences of calls", "why_tests_cant": "an invariant over unbounded call sequences that may stay in mode 5", "anchors": ["src/cxx/s_ccd.c:sccd_standard", "src/python/pycold/colds.py:sccd_identify"]}
{"id": "C58", "title": "An observation never pushes the S-CCD curve past itself", "statement": "When S-CCD accepts an observation into its model, the curve's value on that day moves from its old prediction towards the observation by a share between 0 and 1 (variance of the prediction over total variance), so it never ends up further from the observation; an observation taken for noise and days without observation leave the curve unchanged.", "quantifier": "all coefficients, covariance matrices, observations, dates and model errors (over the reals)", "why_tests_cant": "an inequality over all real matrices and observations", "anchors": ["src/cxx/KFAS.c:filter1step_validobs", "src/cxx/s_ccd.c:KF_ts_filter_regular", "src/cxx/s_ccd.c:KF_ts_filter_falsechange"]}
{"id": "C59", "title": "A new S-CCD filter is trained on every observation of its window", "statement": "When S-CCD starts a model, the filter is run over the observations of the training window twice, first with dates moved back by whole years, in strictly ascending date order, and every one of them is used. (Refuted for snow pixels: no observation follows the window, so the last one is left out of the second run and the residual before it is counted twice.)", "quantifier": "all windows with strictly ascending dates shorter than a century", "why_tests_cant": "ordering after a rounding shift for every window", "anchors": ["src/cxx/s_ccd.c:step1_ssm_initialize", "src/cxx/s_ccd.c:sccd_snow"]}
{"id": "C60", "title": "Break maps show the last confirmed break of each pixel and year", "statement": "In the break map of a year a pixel has -9999 if it has no confirmed break in that year, and otherwise the type of its last confirmed break in that year times 1000 plus the day of the year, whatever the order of the records in the block file; the type depends on the records of that pixel only. (Refuted for a break without a next segment: the last record of a block is never shown, and the type of the last record of a pixel is decided with the first record of the next pixel.)", "quantifier": "all blocks of records inside the block, all years in the range, both COLD and OBCOLD", "why_tests_cant": "Depends on neighbouring records in the sorted block, over arbitrary blocks.", "anchors": ["src/python/pycold/imagetool/export_change_map.py:main", "src/python/pycold/imagetool/export_change_map.py:getcategory_cold", "src/python/pycold/imagetool/export_change_map.py:getcategory_obcold"]}
{"id": "C61", "title": "Recent and first disturbance maps are the latest and earliest disturbed years", "statement": "The recent-disturbance map has the latest year of the range whose break map shows type 1 at the pixel, the first-disturbance map the earliest, and both 0 if there is none; a year shown is the year of a confirmed break of that pixel.", "quantifier": "all year ranges and break maps", "why_tests_cant": "Order of overwriting over an arbitrary range.", "anchors": ["src/python/pycold/imagetool/export_change_map.py:main"]}
{"id": "C62", "title": "Break dates of the object-based analysis reach the right pixel", "statement": "A pixel flagged by the object-based analysis hands on the date of the current snapshot, or of the previous one where the current has none, counted from the launch of Landsat 4, and 0 otherwise; the value that is read for a pixel of a block is the one saved for the same row and column of the tile.", "quantifier": "all tile and block sizes, pixels and dates", "why_tests_cant": "Index arithmetic over all layouts.", "anchors": ["src/python/pycold/ob_analyst.py:segmentation_floodfill", "src/python/pycold/ob_analyst.py:save_obiaresult", "src/python/pycold/ob_analyst.py:get_allobiaresult_asarray", "src/python/pycold/ob_analyst.py:reconstruct_reccg"]}
{"id": "C63", "title": "The class of a packed quality value follows the documented hierarchy", "statement": "Each of the three decoders of quality bands (Collection 1 ARD, Collection 2, HLS) turns every packed value into the class that comes first in the documented hierarchy fill > cloud > shadow > snow > water > clear among the classes the value flags.", "quantifier": "every packed value of every supported product", "why_tests_cant": "Tests cover a few bit patterns; the claim is about all combinations of flags.", "anchors": ["src/python/pycold/imagetool/prepare_ard.py:qabitval_array", "src/python/pycold/imagetool/prepare_ard.py:qabitval_array_c2", "src/python/pycold/imagetool/prepare_ard.py:qabitval_array_HLS"]}
{"id": "C64", "title": "Every usable observation reaches the detection of its pixel, once and in order", "statement": "After all scenes of a tile have been stacked, in any order and by any number of ranks, reading the stack of a block (with the folder listed in any order) gives for each of its pixels the dates and band values of exactly the admitted scenes with a clear, water or snow pixel in that block (within the requested dates), each once, in ascending order of acquisition date, with the values at that pixel; every pixel at which a scene shows the ground is in such a block.", "quantifier": "every list of scenes with regular names and distinct file names, every tile and block size, every processing and listing order, every date range", "why_tests_cant": "Quantifies over images, names, processing orders and directory orders.", "anchors": ["src/python/pycold/imagetool/prepare_ard.py:single_image_stacking", "src/python/pycold/imagetool/prepare_ard.py:single_image_stacking_hls", "src/python/pycold/imagetool/prepare_ard.py:single_image_stacking_collection2", "src/python/pycold/imagetool/tile_processing.py:get_stack_date"]}
{"id": "C65", "title": "Stored band values are the scaled band values", "statement": "For Collection 2 products the stack holds reflectance times 10000 for the six optical bands and temperature times 10 for the thermal band, cut to whole numbers; for the other products it holds the values as they are.", "quantifier": "every band and every 16-bit number in it", "why_tests_cant": "The claim is about all numbers; a test on one image does not show which formula is used for which band.", "anchors": ["src/python/pycold/imagetool/prepare_ard.py:single_image_stacking", "src/python/pycold/imagetool/prepare_ard.py:single_image_stacking_collection2"]}
{"id": "C66", "title": "An accepted tile configuration loses no pixel", "statement": "If the configuration passes the check at the start of tile processing, every pixel of the tile belongs to exactly one block.", "quantifier": "all numbers of rows, columns and blocks", "why_tests_cant": "Divisibility over all sizes.", "anchors": ["src/python/pycold/common.py:DatasetInfo", "src/python/pycold/imagetool/tile_processing.py:main"]}
{"id": "C67", "title": "The first and last date enclose every stacked scene", "statement": "The two dates that the preparation leaves for later steps enclose the date of every scene that is stacked; without date bounds they are the dates of the first and the last scene.", "quantifier": "all lists of scenes and date bounds", "why_tests_cant": "Quantifies over all sets of scenes.", "anchors": ["src/python/pycold/imagetool/prepare_ard.py:main"]}
{"id": "C68", "title": "Each scene is stacked by exactly one rank", "statement": "With ranks 1..n over the same list of scenes, each scene is handled by exactly one rank, once.", "quantifier": "all numbers of scenes and ranks", "why_tests_cant": "All sizes.", "anchors": ["src/python/pycold/imagetool/prepare_ard.py:main"]}
{"id": "C69", "title": "The numbers of a record are computed from the record's own observations", "statement": "For every record of a COLD result, the scenes behind its model are usable clear scenes within the record's dates, as many as reported (one less for a start-of-series segment); the coefficients and the RMSE of each band are those of the fit of that band's values at these scenes with the number of coefficients of the category; the magnitude of each band is the median over the break window of observed minus predicted value, the predictions coming from a model of earlier scenes of the record (for a start-of-series segment: negated, later scenes).", "quantifier": "every series of scenes, every parameter setting, every arithmetic and every solver", "why_tests_cant": "The loop refits, removes outliers and moves indices; that the stored model is the one of the stored dates must hold along every path.", "anchors": ["src/cxx/cold.c:stand_procedure", "src/cxx/misc.c:auto_ts_fit_float"]}
{"id": "C70", "title": "Later scenes do not change confirmed breaks", "statement": "Appending scenes to a series leaves all confirmed records unchanged (dates, coefficients, RMSE, magnitudes), replaces only the open last record, and lowers no entry of the change-magnitude output.", "quantifier": "every series, every continuation of it", "why_tests_cant": "Quantifies over pairs of series; a test sees one continuation.", "anchors": ["src/cxx/cold.c:stand_procedure", "src/cxx/misc.c:adjust_median_variogram"]}
{"id": "C71", "title": "Blue and thermal values take no part in detection", "statement": "Two series that agree in dates, quality and the other five bands, and in which the blue and thermal values are accepted in the same scenes, give the same dates, counts, categories, probabilities, change magnitudes, and the same coefficients, RMSE and magnitudes of the other five bands.", "quantifier": "every pair of such series, every arithmetic and solver", "why_tests_cant": "A non-interference claim about all values of two bands.", "anchors": ["src/cxx/cold.c:lasso_blist", "src/cxx/cold.c:stand_procedure", "src/cxx/misc.c:auto_mask"]}
{"id": "C72", "title": "Stored coefficients describe the fitted curve", "statement": "In exact arithmetic the eight stored coefficients of each band describe exactly the curve that the solver found (the slope is stored times 10000, unused coefficients are zero), the RMSE is the root of the sum of squared residuals of this curve over the degrees of freedom, and the Python prediction evaluates the same curve.", "quantifier": "all series, all bands, all dates, all solver results", "why_tests_cant": "Scaling and unscaling happen in three places and two languages; equality of curves is for all dates.", "anchors": ["src/cxx/misc.c:auto_ts_fit_float", "src/cxx/misc.c:auto_ts_predict_float", "src/python/pycold/utils.py:predict_ref"]}
{"id": "C73", "title": "Magnitudes, angles and change magnitudes mean what they say", "statement": "In exact arithmetic: the magnitude of a break is a median of the differences in its window; the mean change angle is between 0 and 180 degrees and its weight decreases from 1 to 0; every entry of the change-magnitude output is -9999 or between 0 and 32767; the RMSE used in monitoring is the one of the residuals nearest in the year to the observation.", "quantifier": "all series and parameter settings", "why_tests_cant": "Ranges and order statistics over all inputs.", "anchors": ["src/cxx/cold.c:stand_procedure", "src/cxx/misc.c:MeanAngl_float", "src/cxx/utilities.c:angle_decaying", "src/cxx/misc.c:quick_sort_2d_float"]}
{"id": "C74", "title": "Blue and thermal values do not influence S-CCD", "statement": "Two histories of scenes (one `sccd_detect` and any number of `sccd_update` calls) that differ only in blue and thermal values, with the same scenes accepted, give the same mode, the same breaks and counts, the same change strengths and angles, and the same coefficients, RMSE, magnitudes, noise floors and filters for green, red, NIR, SWIR1 and SWIR2.", "quantifier": "all pairs of histories, all arithmetic, regression and matrix routines, all parameter settings", "why_tests_cant": "Non-interference over a sequence of calls: a leak may need a particular state of the stored model.", "anchors": ["src/cxx/s_ccd.c:sccd_standard", "src/cxx/s_ccd.c:step1_cold_initialize", "src/cxx/s_ccd.c:step2_KF_ChangeDetection", "src/cxx/s_ccd.c:lasso_blist_sccd"]}
{"id": "C75", "title": "The numbers of an S-CCD record are those of its own observations", "statement": "Every record closed by a change carries the coefficients, RMSE and magnitudes of a filter that was fitted to the record's own first observations (at least 18, over a year) and taken over its other observations one by one, judged against `conse` received observations from the break date on; observations passed over as noise leave no trace; the stored model is the filter of the observations behind it, at the date of the first observation that waits. Of earlier segments nothing enters.", "quantifier": "all series, all sequences of calls, all arithmetic, regression and matrix routines", "why_tests_cant": "An invariant over the whole run, across calls and the removal of observations.", "anchors": ["src/cxx/s_ccd.c:sccd_standard", "src/cxx/s_ccd.c:step1_ssm_initialize", "src/cxx/s_ccd.c:KF_ts_filter_regular", "src/cxx/s_ccd.c:KF_ts_filter_falsechange"]}
{"id": "C76", "title": "What the numbers of an S-CCD record mean", "statement": "In exact arithmetic, for every record closed by a change: `conse` received observations in a row, the first at the break date, each deviate from the record's curve with squared deviations, in units of the larger of the record's RMSE and the series' noise floor and summed over green to SWIR2, of at least the threshold; the directions of their deviations turn by 45 degrees or less on average; the magnitude of each band is their median deviation from the record's curve; the curve is that of a filter whose error variance is the mean square error of the fit to the record's first 18 or more observations, led over all the record's observations; the RMSE is that of the filter's predictions of these observations, each made before it is used, with each square rounded down. For the record of the start of the series: curve and RMSE of a fit with four coefficients to its observations and the one at the break; the magnitude is the median deviation of the following curve from the last `conse` observations before the break.", "quantifier": "all series, all sequences of calls, all regression solvers, all matrix routines whose innovation is observation minus prediction, all thresholds", "why_tests_cant": "The numbers are produced by different functions in different branches, from states updated observation by observation; tests compare with stored outputs of the same code.", "anchors": ["src/cxx/s_ccd.c:sccd_standard", "src/cxx/s_ccd.c:KF_ts_filter_regular", "src/cxx/s_ccd.c:step1_ssm_initialize", "src/cxx/KFAS.c:vec_a2fit_cft", "src/cxx/s_ccd.c:MeanAngl_float"]}
{"id": "C77", "title": "S-CCD is a Kalman filter over each segment", "statement": "In exact arithmetic, the curve reported for a segment and the covariance kept with it are those of the textbook Kalman filter for a level with slope and two harmonics: it starts from the regression curve of the segment's first 18 or more observations, knowing level and cycles to within 100 and the slope to within a tenth, absorbs these observations once moved back by as many years as they cover, and then all observations of the segment in order, with the mean square error of the regression as error variance; each value moves the curve of its day and of all later days by its distance from the curve times the covariance with that day over its variance (on its own day: towards the value and not beyond), and between dates the covariance is carried on day by day. The stored covariance is always symmetric and positive semidefinite.", "quantifier": "all series, all regression solvers, all thresholds and window lengths; first segment of a call", "why_tests_cant": "The state is converted between coefficients and state vector at each observation, and advanced matrix by matrix; a test compares one series with stored output, and cannot tell a filter from an update that happens to converge to the same curve.", "anchors": ["src/cxx/KFAS.c:filter1step_validobs", "src/cxx/KFAS.c:filter1step_missingobs", "src/cxx/KFAS.c:fit_cft2vec_a", "src/cxx/KFAS.c:vec_a2fit_cft", "src/cxx/s_ccd.c:step1_ssm_initialize", "src/cxx/s_ccd.c:KF_ts_filter_regular"]}
{"id": "C78", "title": "The fitted curves are LASSO curves", "statement": "In exact arithmetic, for observations on at least two days: the regression behind every fitted curve ends, by convergence alone, after finitely many passes, with a result that does not depend on the number of passes allowed; the curve returned minimises half the mean square error plus 20 times the absolute coefficients (each in units of the standard deviation of its regressor) among all curves with the same number of coefficients; its errors sum to zero, their mean square is at most the variance of the values, and the absolute coefficients together at most a fortieth of that variance; if the standard deviation of the values is at most 20 the curve is their mean. In particular this holds for the stored curve of every band of every COLD record and for the fits of S-CCD.", "quantifier": "all tables of regressors and all values; all series and parameters of COLD; all lists of observations for S-CCD", "why_tests_cant": "The solver is iterative with a covariance table filled on demand and two nested loops without a limit on passes; that it ends, and that the table and gradients stay consistent so that what it converges to is the minimum, are claims about every table, not about samples.", "anchors": ["src/cxx/GLMnet.f:elnet1", "src/cxx/GLMnet.f:elnetu", "src/cxx/GLMnet.f:standard", "src/cxx/GLMnet.f:chkvars", "src/cxx/misc.c:c_glmnet", "src/cxx/misc.c:auto_ts_fit"]}
{"id": "C79", "title": "COLD finds a step and nothing else", "statement": "In exact arithmetic, with the LASSO fits of the program: (1) if in every band of the change test the clear values stay in a range of at most 40 that is small in comparison with the usual change from one observation to the next (sum over the bands of (range / change)^2 not above the change threshold), cold reports no break: at most one record, with probability, break date and magnitudes zero; (2) if in addition a first model can be tried and the noise screening flags nothing, it reports exactly one record, from the first to the last clear date; (3) if the first n clear observations are like this and the next conse are shifted in every band by an amount that is large in comparison with range and usual change, all in one direction per band and similar in size, then the first record covers exactly the observations before the shift, the break is dated to the first shifted observation with probability 100, and the magnitude of every band lies between the smallest and the largest shift.", "quantifier": "all series, sizes of the shift, ranges, thresholds, numbers of consecutive observations and outcomes of the robust regression that meet the conditions", "why_tests_cant": "That no path through initialisation, refits, monitoring and outlier removal produces a spurious record, or misses or misdates a step, is a claim about every series of any length; samples exercise a few paths.", "anchors": ["src/cxx/cold.c:stand_procedure", "src/cxx/cold.c:cold", "src/cxx/misc.c:auto_ts_fit_float", "src/cxx/misc.c:auto_mask", "src/cxx/misc.c:MeanAngl_float", "src/cxx/misc.c:adjust_median_variogram"]}
{"id": "C80", "title": "The noise screening cannot be led by a minority", "statement": "In exact arithmetic, with least-squares solvers that return minimisers: the curve the noise screening fits to a window (robust regression, at most five rounds) is the weighted least-squares curve for some weights between 0 and 1 of which at least (n + 4) / 2 are at least 0.95; if some curve of the family is within e of all values, the curve found is within e times the root of n / 0.95 of at least (n + 4) / 2 of them; if the values lie on a curve of the family (a constant, a yearly cycle and a cycle of the length of the window), the curve found passes through all of them, so that nothing is screened out; multiplying the values multiplies the coefficients; a residual is enlarged by a factor between 1 and 100, whatever the leverage of the observation. cold asks for this regression only with six or more observations, so that the library never ends the process for want of observations.", "quantifier": "all windows, values, least-squares solvers, leverages, series and parameters", "why_tests_cant": "The weights come from medians of residuals of earlier rounds; that a majority keeps nearly full weight, and that the library is never called with too few observations, must hold for every window of every series.", "anchors": ["src/cxx/multirobust.c:gsl_multifit_robust", "src/cxx/multirobust.c:robust_madsigma", "src/cxx/multirobust.c:robust_test_convergence", "src/cxx/misc.c:auto_robust_fit", "src/cxx/misc.c:auto_mask"]}
{"id": "C81", "title": "A constant added to a band changes only the intercepts", "statement": "In exact arithmetic, with the LASSO fits of the program: if a series is changed by adding a constant to each reflective band (blue, green, red, near infrared, SWIR1, SWIR2) of its clear usable scenes, and no clear scene becomes usable or unusable by this, then cold treats both series the same way and its results agree in segment dates, break dates, observation counts, categories, probabilities, RMSE, magnitudes, slopes, harmonic coefficients and the change-magnitude output, while each intercept is larger by the constant of its band. Without further conditions this holds for blue, red, near infrared and SWIR2; for green and SWIR1 it holds if the noise screening flags the same observations before and after, in particular if the robust regression answers a constant added to the values with the same constant added to its intercept.", "quantifier": "all series, constants, parameters and robust regressions", "why_tests_cant": "The claim relates two whole runs for every series and every constant; a test compares a few pairs.", "anchors": ["src/cxx/cold.c:stand_procedure", "src/cxx/cold.c:cold", "src/cxx/misc.c:auto_ts_fit_float", "src/cxx/misc.c:auto_mask", "src/cxx/misc.c:adjust_median_variogram", "src/cxx/misc.c:c_glmnet"]}
{"id": "C82", "title": "A constant added to a band changes only the intercepts of S-CCD", "statement": "In exact arithmetic, with the LASSO fits and the Kalman filter of the program, for a pixel that is not treated as snow, with ascending dates and not exactly one usable observation: if a series is changed by adding a constant to each reflective band of its clear usable scenes, and no clear scene becomes usable or unusable by this, then sccd_detect fails on both in the same way, or returns packs with the same mode and minimum RMSE whose records agree in start, break, observation count, RMSE, magnitudes, slopes and harmonic coefficients, whose models agree in covariances, error variances, sums of squares and anomaly data, and whose stored observations differ by the constants, while each intercept is larger by the constant of its band. Without further conditions this holds for blue, red, near infrared and SWIR2; for green and SWIR1 it holds if the noise screening flags the same observations before and after, in particular if the robust regression answers a constant added to the values with the same constant added to its intercept.", "quantifier": "all series, constants, parameters, snow thresholds and robust regressions", "why_tests_cant": "The claim relates two whole runs, with all their filter steps, for every series and every constant; a test compares a few pairs.", "anchors": ["src/cxx/s_ccd.c:sccd", "src/cxx/s_ccd.c:sccd_standard", "src/cxx/s_ccd.c:KF_ts_filter_regular", "src/cxx/s_ccd.c:step1_ssm_initialize", "src/cxx/KFAS.c:filter1step_validobs", "src/cxx/misc.c:auto_ts_fit_sccd", "src/cxx/misc.c:auto_mask"]}
{"id": "C83", "title": "A series moved by whole four-year periods gives the same result, moved", "statement": "In exact arithmetic (with the true value of pi), with the LASSO fits of the program: if all dates of a series, none of them 0, and the start of the change-magnitude output are moved by the same multiple of 1461 days (four years of 365.25 days), then cold treats both series the same way and its results agree in observation counts, categories, probabilities, RMSE, magnitudes, slopes, harmonic coefficients and change-magnitude values, while segment dates, break dates and the dates of the change-magnitude output are moved by as many days and each intercept makes up for the slope, so that the curve of every record is the same curve moved. This holds if the noise screening flags the same observations before and after, in particular if the curve found by the robust regression does not depend on the day from which time is counted.", "quantifier": "all series, multiples of four years, parameters and robust regressions", "why_tests_cant": "The claim relates two whole runs for every series and every shift; a test compares a few pairs, and a dependence on the calendar epoch can show only for series near a threshold.", "anchors": ["src/cxx/cold.c:stand_procedure", "src/cxx/cold.c:cold", "src/cxx/misc.c:auto_ts_fit_float", "src/cxx/misc.c:auto_ts_predict_float", "src/cxx/misc.c:auto_mask", "src/cxx/misc.c:c_glmnet"]}
{"id": "C84", "title": "Break maps of S-CCD show the last break of each pixel and year", "statement": "For S-CCD results, the break map of a year that the export fills for a block (it does not come to save it: C89) has -9999 at a pixel without a break in that year, and otherwise the type of its last break of the year (2 regrowth, 1 disturbance) times 1000 plus the day of the year; a break is never written to another pixel. (Refuted for the pixel whose pack is the last one of the block file: it never shows a break; and a pack whose position is to the left of the block is written to another pixel of the block.)", "quantifier": "all lists of packs with positions in the block, all breaks, all years in the range", "why_tests_cant": "The excluded pack depends on its place in the file; a claim about every block, pixel and year.", "anchors": ["src/python/pycold/imagetool/export_change_map.py:main", "src/python/pycold/imagetool/export_change_map.py:getcategory_sccd"]}
{"id": "C85", "title": "The last stage of OBCOLD rebuilds every pixel from its own series and its own object breaks", "statement": "After the object analysis has saved its decision for every date (in any order, by any rank, over files of an earlier run with the same dates), reconstruct_reccg reconstructs each block by one call of obcold_reconstruct for each pixel of the block, in order, with the dates and bands of that pixel, its own break dates in the order of time (0 where the pixel did not change or has no date) and its own number in the tile; over all blocks every pixel of the tile is rebuilt once; a pixel whose call raises is left out and does not affect the others; the scenes are those detection used, and a block without scenes is passed over. (Refuted: a block without scenes or in which every call raises ends the rank with an exception; bounds on the years are not applied; without a stack a tile of more than one block cannot be read.)", "quantifier": "all tiles filled by blocks, all sets of dates with six-digit ordinals, all change maps and break dates, all orders of saving and of listing, all stacks, all behaviours of obcold_reconstruct", "why_tests_cant": "Names, sorting and strides must agree for every number of blocks and dates and every order of directory listing.", "anchors": ["src/python/pycold/ob_analyst.py:save_obiaresult", "src/python/pycold/ob_analyst.py:get_allobiaresult_asarray", "src/python/pycold/ob_analyst.py:reconstruct_reccg", "src/python/pycold/utils.py:read_blockdata", "src/python/pycold/imagetool/tile_processing.py:main"]}
{"id": "C86", "title": "Pinpoint records: one per period, the strongest anomaly, and the breaks stay as they are", "statement": "With b_pinpoint=True and gate_tcg not above t_cg, sccd_detect returns the same SccdOutput as with b_pinpoint=False, provided the clear observations are not earlier than 1982 and cover at most forty periods of 365.25 days counted from 1 January 1982. Each pinpoint record belongs to an observation compared with the current model in monitoring, none of the first three observations of whose window was below gate_tcg. There is at most one record per period, records are in order of time and at most forty; the record is that of the largest minimum magnitude over the window among such observations of the period, the earliest one among equals, with the date, the coefficients, the running minima and mean angles of the magnitudes, and the observations of that window; and no period with such an observation of positive minimum magnitude is left out. With conse of at least 3, every break of the SccdOutput except an opening record has a pinpoint record in its period that is at least as strong (over-detection); with conse below 3 there are none. With conse of 7 or 8 all eight stored observations are clear observations of the series.", "quantifier": "all series of scenes with known QA values and ascending clear dates, all window lengths, all thresholds with gate_tcg <= t_cg, all numerical results whose comparison is a strict weak order", "why_tests_cant": "The table of strongest anomalies is filled over the whole history of filters, breaks and re-initialisations, for every series; the equality of the two outputs concerns every pair of runs.", "anchors": ["src/cxx/s_ccd.c:step2_KF_ChangeDetection", "src/cxx/s_ccd.c:sccd_standard", "src/python/pycold/_colds_cython.pyx:_sccd_detect", "src/python/pycold/colds.py:sccd_detect", "src/cxx/output.h:Output_sccd_pinpoint"]}
{"id": "C87", "title": "What sccd_identify reports, with the program's own tests", "statement": "For conse = 6 (the default), in exact arithmetic. After sccd_detect in mode 1, let the run be the newest clear observations, at most six, that deviate without a gap from the curve of the returned model by more than the gate, all tested bands together, in units of the larger of noise floor and RMSE. sccd_identify returns the date of the first observation of the run if the run has at least dist_conse observations, a hundred times the smallest of their deviations is above t_cg_scale100, a hundred times their mean angle is below t_angle_scale100, and their median deviations in red, NIR and SWIR1 are not those of a greening; otherwise it returns 0. The same holds after sccd_update with six or more usable new observations, except that with a stored count of 0 anomalies the answer is 0. In mode 5 (change confirmed) the medians tested are the magnitudes of the last record, the date is its t_break, and the strength and angle are those of the six observations that confirmed the change, each of which is at least as strong as the threshold of detection. With the default t_cg_singleband_scale1000 = -200 a confirmed change of magnitude below 200 in red and SWIR1 and above -200 in NIR is never reported.", "quantifier": "all series of scenes, all sessions of sccd_detect, sccd_update and sccd_identify before the query, all thresholds of sccd_identify, all numerical results of the regressions and of the filter", "why_tests_cant": "The answer joins what C code stored at the end of an earlier call with what Python code recomputes from it, for every series and every session; tests fix one series and one threshold.", "anchors": ["src/python/pycold/colds.py:sccd_identify", "src/python/pycold/utils.py:calculate_sccd_cm", "src/python/pycold/utils.py:predict_ref", "src/cxx/s_ccd.c:step3_processing_end", "src/cxx/s_ccd.c:step2_KF_ChangeDetection"]}
{"id": "C88", "title": "A saved S-CCD pack is loaded as it was", "statement": "A pack returned by sccd_detect or sccd_update is the same after unindex_sccdpack and index_sccdpack (as done between runs, to save memory): position, records, noise floors, mode, model and queue, in every mode; the same for a file of packs in order. Lists of another length than six are refused. The record types through which the C code and Python share memory have every field at the same place and of the same size as the C structs.", "quantifier": "all packs whose records, model and queue are of the declared record types, all numbers that the fields can hold, all files of packs", "why_tests_cant": "A claim about every pack in every mode; one that is altered on the way (a field rounded, an empty array of another kind) would only show in a later update.", "anchors": ["src/python/pycold/utils.py:unindex_sccdpack", "src/python/pycold/utils.py:index_sccdpack", "src/python/pycold/common.py:nrtmodel_dt", "src/cxx/output.h:output_nrtmodel"]}
{"id": "C89", "title": "The export writes break maps for S-CCD results", "statement": "With method SCCDOFFLINE, the export reads the record file of every block and writes a break map for every year. (Refuted: a pack that has a model, which is the usual case, cannot be read, because the export has an outdated copy of the record type; and when all packs can be read, the maps of the block are not saved, because the lines that save them belong to the branch of the other methods, so putting the map together raises. Only a run in which every record file is missing writes maps, of -9999. With coefficients asked for it raises in any case.)", "quantifier": "all numbers of blocks, years and record files, all packs, all contents of the output directory", "why_tests_cant": "A claim about every set of record files; no test of the repository runs the export.", "anchors": ["src/python/pycold/imagetool/export_change_map.py:main", "src/python/pycold/imagetool/export_change_map.py:index_sccdpack", "src/python/pycold/utils.py:unindex_sccdpack"]}
{"id": "C90", "title": "Break maps of COLD and OBCOLD are complete and do not depend on earlier runs", "statement": "With method COLD or OBCOLD, if the records of every block can be mapped (C60), the export writes for every year of the range a break map put together from all blocks in order: the maps of the records, and -9999 for blocks whose record file is missing; whatever an earlier, interrupted run left in the directory has no influence. The maps of recent and first disturbance follow. (Refuted for one case: with coefficients asked for and a missing record file it raises before the maps of recent and first disturbance.)", "quantifier": "all numbers of blocks and years, all sets of missing files, all contents of the output directory before", "why_tests_cant": "The contents of the directory are the history of all earlier runs, interrupted anywhere.", "anchors": ["src/python/pycold/imagetool/export_change_map.py:main"]}
{"id": "C91", "title": "Yearly cover maps give every pixel the class of its own features", "statement": "If the record file of every block holds the records of its own pixels, those of a pixel one after the other, then the steps of the classifier (features of the blocks, classification, assembly) succeed, and in the cover map of every predicted year each pixel has the class the trained classifier gives to the features of that pixel's own records on 1 July of that year, and 255 if no segment covers the day; in whatever order the ranks take the blocks and the directory lists the files, with missing record files, and with files left by an earlier run for the tile.", "quantifier": "all tiles, block sizes, record files, years, bands, lists of features, classifiers, orders of blocks and listings, earlier files in the directory", "why_tests_cant": "Mixed-up pixels or blocks give plausible maps; the order of os.listdir, the sharing out and leftover files vary from run to run.", "anchors": ["src/python/pycold/pyclassifier.py:predict_features", "src/python/pycold/pyclassifier.py:classification_block", "src/python/pycold/pyclassifier.py:step1_feature_generation", "src/python/pycold/pyclassifier.py:step3_classification", "src/python/pycold/pyclassifier.py:step4_assemble", "src/python/pycold/utils.py:assemble_array"]}
{"id": "C92", "title": "Training rows are those of the allotted numbers of labelled pixels", "statement": "For a reference map of the size of the tile with at least one pixel of a category, and a year among the predicted ones, training succeeds: it uses different pixels, each with the features of its own records on 1 July of the year and with its own label, and of every category as many as its share of the total number of samples, raised to the minimum or lowered to the maximum, and never more than the category has pixels.", "quantifier": "all reference maps with labels from 0, numbers of categories, limits, ways of choosing at random, and everything C91 ranges over", "why_tests_cant": "Depends on the frequencies of the labels and on random choices; a pixel with another pixel's features or label only makes the classifier worse.", "anchors": ["src/python/pycold/pyclassifier.py:generate_sample_num", "src/python/pycold/pyclassifier.py:train_rfmodel", "src/python/pycold/pyclassifier.py:step2_train_rf", "src/python/pycold/pyclassifier.py:get_fullfeature_forcertainyear"]}
{"id": "C93", "title": "The object analysis of a snapshot uses the maps of its own and of the previous date", "statement": "The snapshots cover every date of the dataset, each date by exactly one. After the change-magnitude and date maps have been written (in any interleaving, over the files of an earlier run) the object analysis of a snapshot works on the magnitudes and dates that detection stored for each pixel for this snapshot and for the one before, and on the cover map predicted for the year before (for the first year, of that year); what it saves for a pixel is the break date if the object of the pixel is change, and 0 otherwise; the first snapshot never has changes. (Refuted for a dataset whose snapshots lie in one calendar year: no cover map is predicted and the analysis raises.)", "quantifier": "all first and last dates, intervals, grids of square arrangement, contents of the files, orders of writing, earlier contents of the directories", "why_tests_cant": "The files are written and read by different modules under names built from dates; an error of one snapshot or one year shows only in the results of particular dates.", "anchors": ["src/python/pycold/imagetool/tile_processing.py:reading_start_dates_nmaps", "src/python/pycold/imagetool/tile_processing.py:is_finished_assemble_cmmaps", "src/python/pycold/utils.py:assemble_cmmaps", "src/python/pycold/ob_analyst.py:obia_execute", "src/python/pycold/ob_analyst.py:get_lastyear_cmap_fromdate", "src/python/pycold/ob_analyst.py:cmname_fromdate"]}
{"id": "C94", "title": "Ranks preparing a tile side by side never fail, never hang, and give the stacks of one process", "statement": "Ranks 1 to n_cores of prepare_ard started together on one tile: in every interleaving no rank raises (in particular none saves into a block folder that is not there yet), as long as a rank is unfinished some rank can go on and the number of steps is bounded, and when all are finished the block folders hold exactly the files of a single process that stacks all scenes, the first and last date are written, and every rank has left its flag; at every moment, also if ranks are killed, a rank's flag is there only if all files of its scenes are, and as long as the file of dates is missing no rank but rank 1 has done anything. (Refuted when the output folder holds the file of dates of an earlier run with other blocks: a rank may then raise.)", "quantifier": "all numbers of ranks, all interleavings of their steps and moments at which ranks are killed, all lists of scenes with regular names, all configurations", "why_tests_cant": "The waiting on a file depends on the schedule; a test sees a few interleavings on an empty folder.", "anchors": ["src/python/pycold/imagetool/prepare_ard.py:main", "src/python/pycold/imagetool/prepare_ard.py:checkfinished_step1", "src/python/pycold/imagetool/prepare_ard.py:single_image_stacking"]}
{"id": "C95", "title": "Scenes that do not show the ground have no influence", "statement": "If two series of a pixel have the same scenes up to scenes marked cloud, shadow or fill, of which each may have any number, at any dates and with any band values, then cold_detect's standard procedure returns the same (snow scenes may differ, too), obcold_reconstruct the same segments, and sccd_detect followed by any sequence of sccd_update the same packs and pinpoint records; the fallback for persistent snow returns the same record. (Refuted for the fallback for too few clear observations: it uses cloudy scenes whose values are in range.)", "quantifier": "all pairs of series with the same visible scenes, all parameters, all numerical routines, all sequences of updates", "why_tests_cant": "The number, dates and values of masked scenes are unlimited; a test fixes a few.", "anchors": ["src/cxx/cold.c:cold", "src/cxx/cold.c:inefficientobs_procedure", "src/cxx/cold.c:obcold_reconstruction_procedure", "src/cxx/s_ccd.c:sccd", "src/cxx/utilities.c:preprocessing"]}
{"id": "C96", "title": "Unusable values and further scenes of a day have no influence", "statement": "In a series in the order of its dates, replace the values of clear (or water) scenes that have a value outside the physical range by other values outside the range, and the values of clear scenes that come after a usable clear scene of the same date by any values. Then cold_detect's standard procedure returns the same, obcold_reconstruct the same segments, and sccd_detect followed by any sequence of sccd_update the same packs and pinpoint records, unless the pixel is in the snow mode; the fallback for too few clear observations returns the same record if only values outside the range were replaced. (Refuted for S-CCD's snow mode, which has no range test, and for repeated dates in that fallback.)", "quantifier": "all pairs of series that differ in such scenes only, all parameters, all numerical routines, all sequences of updates", "why_tests_cant": "The replaced values are arbitrary and any number of scenes may be replaced; a test tries a few.", "anchors": ["src/cxx/cold.c:cold", "src/cxx/cold.c:stand_procedure", "src/cxx/cold.c:inefficientobs_procedure", "src/cxx/cold.c:obcold_reconstruction_procedure", "src/cxx/s_ccd.c:sccd", "src/cxx/utilities.c:preprocessing"]}
{"id": "C97", "title": "Dates and day numbers", "statement": "date2matordinal and matordinal2date are inverse to each other on the days of the years 1 to 9999; 1 January of the year 1 is day 1, the day after a day has the next number, and day number n+1 is the day n days later; dates that do not exist and numbers out of range raise. get_anchor_days gives the requested number of days, each one interval after the one before, and raises for an interval of 0.", "quantifier": "all dates, all day numbers, all first days, numbers of maps and intervals (also negative)", "why_tests_cant": "There are 3.6 million days and no bound on the intervals; leap-year rules are wrong on few days only, which samples miss.", "anchors": ["src/python/pycold/utils.py:date2matordinal", "src/python/pycold/utils.py:matordinal2date", "src/python/pycold/utils.py:get_anchor_days"]}
{"id": "C98", "title": "The index image names every pixel", "statement": "generate_rowcolimage writes an image of the size of the reference image, in which the pixel in line i and column j (from 1) is 10000 i + j; with at most 9999 columns the value names the line and the column, with at most 10000 columns values are different. (Proved exactly for square reference images with one band, or as many bands as lines; refuted for all others: rectangular images raise, images with several bands give an image of zeros from the line of that number on; with more than 10000 columns and two lines values coincide.)", "quantifier": "all sizes and numbers of bands of the reference image (with values that fit into 32 bits), all pixels", "why_tests_cant": "It must hold for every pixel of images of every size.", "anchors": ["src/python/pycold/utils.py:generate_rowcolimage"]}
{"id": "C99", "title": "The description of the dataset is made from four entries", "statement": "class_from_dict(DatasetInfo, d): rows, columns and block counts are those of d; block width and height are the sides divided by the block counts, rounded down; other entries of d and the order of entries do not matter; it raises exactly if one of the four entries is missing or a block count is 0. The blocks cover the dataset exactly if the block counts divide its sides.", "quantifier": "all dictionaries, all sizes and block counts", "why_tests_cant": "Dictionaries may contain any number of other entries in any order.", "anchors": ["src/python/pycold/utils.py:class_from_dict", "src/python/pycold/common.py:DatasetInfo"]}
{"id": "C100", "title": "The extent covers the feature", "statement": "bbox gives the smallest box around all positions of a GeoJSON geometry, of whatever type and however nested; a geometry without positions, or whose positions have a height, raises. get_extent gives whole pixels around the centre of the box that cover the box with its margin, with less than one pixel to spare in each direction; so every position of the geometry lies in the extent.", "quantifier": "all geometries of any depth and number of positions, all resolutions above 0 and margins", "why_tests_cant": "Geometries are trees of any depth and size; the covering must hold for every position and every resolution.", "anchors": ["src/python/pycold/imagetool/prepare_ard.py:explode", "src/python/pycold/imagetool/prepare_ard.py:bbox", "src/python/pycold/imagetool/prepare_ard.py:get_extent"]}
{"id": "C101", "title": "The direction test sees directions only", "statement": "The mean angle of successive difference vectors that COLD and S-CCD compare with 45 degrees before confirming a break depends on the directions of the vectors only, not on their lengths, and is the same when the order of time is reversed; it is 0 exactly if all vectors point the same way, so that such changes always pass the test; if each vector points the opposite way of the one before it is more than 179 degrees, so that such changes never pass.", "quantifier": "all numbers of observations and bands, all difference vectors other than 0, all positive factors (exact arithmetic)", "why_tests_cant": "It must hold for all real vectors and any number of them; equality (exactly if) cannot be tested.", "anchors": ["src/cxx/misc.c:MeanAngl_float", "src/cxx/cold.c:stand_procedure", "src/cxx/s_ccd.c:step2_KF_ChangeDetection"]}
{"id": "C102", "title": "Changes in one direction pass the direction test in single precision", "statement": "If the difference vectors of the observations after a break are all equal (and so point the same way), the direction test of COLD and S-CCD is passed. (Proved in exact arithmetic, C101. Refuted for COLD in the single precision of the program: the arc cosine may be taken of a number above 1, the mean angle is NaN, and COLD's comparison fails although the change is above the threshold in every observation; S-CCD's comparison passes.)", "quantifier": "all numbers of observations from two on; the nearest number with 24 significant bits as the result of every operation", "why_tests_cant": "The failure depends on the rounding of square roots and concerns values that a test will not choose.", "anchors": ["src/cxx/misc.c:MeanAngl_float", "src/cxx/cold.c:stand_procedure", "src/cxx/s_ccd.c:step2_KF_ChangeDetection"]}
{"id": "C103", "title": "Quotients computed in floating point are the integer quotients", "statement": "Block numbers, positions, block sizes and shares of work are computed as int(a / b) or int(np.ceil(a / b)). For numerators from 0 to 2^53 - 1 and positive denominators the result is the integer quotient, rounded down or up, whatever the way in which ties are rounded; in particular the block sizes of a dataset are the integer quotients of its sides, and the line in the tile (a quotient and two sums, all rounded) is exact. (For larger numerators the result may be one too large: (3 * 2^54 - 1) / 3.)", "quantifier": "all numerators below 2^53, all positive denominators, all roundings to the nearest double", "why_tests_cant": "There are 2^106 pairs; quotients just below an integer are rare.", "anchors": ["src/python/pycold/common.py:DatasetInfo", "src/python/pycold/utils.py:get_block_y", "src/python/pycold/utils.py:get_row_index", "src/python/pycold/utils.py:get_rowcol_intile", "src/python/pycold/imagetool/tile_processing.py:main", "src/python/pycold/imagetool/export_change_map.py:main"]}
