# Formal model of GERSL/pycold in Lean 4

The source modelled is `/repo` (C under `src/cxx`, Cython and Python under `src/python/pycold`). Nothing of it is
executed; it is read as text and transcribed function by function.

Layout of `lean/Verif`:

* `Model/` – the transcription. Every definition cites the file and lines it models and says where it simplifies.
* `Spec/` – small specifications, written without the helpers of the model, in which the properties are stated.
* `Proof/` – lemmas.
* `Props/` – one theorem (or a few) per property, named after it, with `example`s that meet the hypotheses.

`properties.jsonl` has the properties in English, `MANIFEST.json` the theorems for each, `seeded/LOG.jsonl` the
edits of the model that were tried and the theorems they break.

## Trusted base

* The Lean 4.33.0 kernel. Axioms: at most `propext`, `Classical.choice`, `Quot.sound`; the list by theorem is at
  the end of this file. No axioms are added; there is no `sorry`, `native_decide` or `bv_decide`. Concrete
  witnesses use `decide`/`decide +kernel`, which the kernel evaluates.
* The transcription from C, Cython and Python to Lean.
* Numbers. `int` is `Int`/`Nat`; overflow is modelled where a 16-bit field or an `int` product can overflow for
  inputs the API accepts (C29, C31, C42, C43, C44), elsewhere integers are unbounded. Floating-point *values* are
  either (a) left open: numerical tests are answered by an arbitrary oracle that may depend on the whole history,
  so the theorem holds whatever the floats do, NaN included; or (b) idealised as rationals, reals or any linear
  order where the property is about values (medians, Kalman filter, thresholds, features); the model file says so.
* Undefined behaviour and exceptions are outcomes of the model (`none`, `oob`, `ub`, `raised`), so that "no invalid
  access" is a theorem and not an assumption.
* Files: a file exists or not and has contents; a crash can happen between any two steps, and in the middle of a
  write. Concurrency: any interleaving of the steps of the ranks.

## What is modelled

| file in `/repo` | modelled | not modelled |
|---|---|---|
| `src/cxx/cold.c` | `preprocessing`, `cold`, `stand_procedure` (control flow, indices, records; numerical tests as oracles), `inefficientobs_procedure`, `obcold_reconstruction_procedure`, change magnitudes; with band values in `ColdV.lean`/`ColdNum.lean` (fits, scores, medians, angles) | floating-point rounding (arithmetic is a parameter; real numbers in C72, C73) |
| `src/cxx/s_ccd.c` | `sccd`, `sccd_standard`, `sccd_snow`, `sccd_inefficientobs` (counters), monitoring, grids, NRT packs, pinpoint records (`Pinpoint.lean`), conversion of the state vector, Kalman filter (`Kalman.lean`); fits, filter, scores and records as functions of the data (`SccdNum.lean`) | variance estimates of `grid_search`/`lbfgs` |
| `src/cxx/misc.c`, `multirobust.c`, `utilities.c` | sorting, medians, nearest date, calendar, `c_glmnet` scatter, variograms, robust regression (`Robust.lean`) | the least-squares solvers of GSL (specified), `lbfgs.c` |
| `src/cxx/GLMnet.f` | `elnet`, `elnetu`, `chkvars`, `standard`, `elnet1` as called from `c_glmnet` (`Glmnet.lean`, real numbers) | other entry points (not called), float rounding |
| `src/cxx/2d_array.c` | all | alignment |
| `src/cxx/input.c` | `read_bip`, `read_bip_lines` | other readers (not reached from Python), header parsing |
| `_colds_cython.pyx`, `colds.py`, `_param_validation.py` | dispatch, conversion of arguments, validation, packing of results | message texts |
| `common.py`, `imagetool/tile_processing.py`, `app.py` | blocks, ranks, positions, flags, crash/restart | shell set-up |
| `pyclassifier.py`, `imagetool/export_change_map.py` | features, class assembly over ranks, break/recent/first maps, files written by the export (`Pack.lean`), cover maps and training rows (`Classifier.lean`) | the random forest, rounding to float32 |
| `ob_analyst.py` | flood-fill segmentation, statistics of objects, decision, saving of dates, names and schedule of the snapshots (`Snapshots.lean`), reconstruction (`Recon.lean`) | SLIC, watershed, Gaussian filter (arbitrary function), `skimage.label` (specified) |
| `imagetool/prepare_ard.py`, `get_stack_date` | quality decoders, scaling, scene names and dates, partitioned stacking, sharing of scenes, first and last date, the ranks side by side (`Ranks.lean`), the extent of a feature (`Extent.lean`) | gdal, tar files, float rounding, stacking without partitions |
| `utils.py` | position arithmetic, assembly of maps, `predict_ref`, `calculate_sccd_cm`, `unindex_sccdpack`, `index_sccdpack`, `read_blockdata`, dates, anchor days, the index image and `class_from_dict` (`Utils.lean`) | other time-series reading helpers |

## How the big loops are modelled

`stand_procedure` (cold.c) and `sccd_standard` (s_ccd.c) are state machines over the indices (`i`, `i_start`,
`i_dense`, `end`, ...), the array of remaining clear observations and the list of records. Every decision that
depends on floating-point data (Tmask verdict per observation, stability test, change test in look-back and
monitoring, outlier test, refit gate) is answered by an oracle. Array reads are checked.

## Properties: model and method

| id | model | method |
|----|-------|--------|
| C01, C02 | `preprocessing` as a fold over (bands, qa) | count equalities and iff by induction |
| C03 | date check of `cold`, `obcold`; none in `sccd` | adjacent-sorted iff pairwise sorted; witness |
| C04 | clear selection and `matlab_unique` with in-place writes | refinement to filter and dedup |
| C05–C09 | `stand_procedure` with oracles | measure, invariant over the loop, for all oracles |
| C10 | number of fitted observations | equality; witness for the start-of-series segment |
| C11 | record count and capacity 40 | counting invariant; overrun witness |
| C12 | `update_cft` | linear arithmetic |
| C13, C14 | quicksorts on arrays with checked access | termination, permutation, sortedness, frame |
| C15 | `c_glmnet` expansion | through C14 |
| C16 | medians | order statistics by counting |
| C17 | `find_index_clrx` | loop invariant |
| C18–C20 | calendar loops | closed form; negation for 1973 |
| C21 | change-magnitude slots | division lemmas; witness |
| C22 | compaction loops of the fallback procedures | exact characterisation, refutation by inputs |
| C23 | break filter and segment loop of `obcold` | invariant; exact outcomes |
| C24–C28, C30, C53–C57 | `sccd_standard`, packs, Cython dispatch | measure, invariants over sequences of calls, simulation between batchings; witnesses |
| C29 | 16-bit wrap of dates | balanced-mod lemma, iff |
| C31 | `sccd_snow` counters | invariant over sequences of updates |
| C32, C33, C58, C59 | Kalman filter over the reals | trigonometry, positive semidefinite matrices, equality with the textbook filter day by day |
| C34–C36, C49 | index arithmetic of tiles and ranks | div/mod bijections; refutations for non-square grids and rank 0 |
| C37, C50 | block processing with crashes | invariant over arbitrary runs |
| C38, C51, C52 | ranks of the classification with barriers by files | invariants over all schedules; liveness; hang/torn-map witnesses |
| C39, C40, C62 | flood-fill segmentation and object decision | reachability, invariant over seeds, order reasoning |
| C41 | `sccd_identify` | iff; witnesses |
| C42 | validation and conversion of arguments | iff over arbitrary Python values |
| C43 | two-dimensional arrays on bytes | refinement of any program to independent matrices |
| C44 | BIP readers | refinement to "covering scenes in order" |
| C45 | first degradation | induction |
| C46, C60, C61 | features and change maps | induction, calendar lemmas; witnesses |
| C47 | variogram lags | termination under the span condition; divergence otherwise |
| C48 | running-minimum test; the monitoring loop and the look-back of COLD (the noise removal in them) | equivalence with `forall`; the loop refines an inductive specification of monitoring that keeps the list of scenes not yet taken for noise |
| C63 | Stack.lean, the three decoders as sequences of overwrites | all flag combinations; refutation for the fill flag |
| C64 | Stack.lean: names as character lists, images as flat lists with `as_strided` offsets, folders as lists of files, `get_stack_date` | names round trip, saved blocks per scene, no collisions, permutation invariance of the sort |
| C65 | Stack.lean `stored`, exact arithmetic | rational bounds on truncation; refutation for two bands |
| C66 | Stack.lean `acceptsConfig`, `Config.bw` | division with remainder; witness |
| C67 | Stack.lean `startLast` | sortedness |
| C68 | Stack.lean `scenesOf` (loop of Tile.lean) | C36 |
| C69 | ColdV.lean: the loop with band values over a kit of numerical functions; ColdNum.lean: the kit of the program | forward simulation to Cold.lean; invariant of the loop linking model, dates and window |
| C70 | ColdV.lean, two runs | simulation of the shorter by the longer run up to the open segment; witness for the variogram |
| C71 | ColdV.lean, ColdNum.lean | homomorphism onto the five-band program |
| C72 | ColdNum.lean over real numbers (`Spec/ColdExact.lean`) | algebra of the design rows and stored slots |
| C73 | ColdNum.lean over real numbers | invariant on offered values; order statistics from the sorting theorem |
| C74 | Sccd.lean with the numerical functions of SccdNum.lean | homomorphism onto the five-band program, calls chained by congruence |
| C75 | Sccd.lean with SccdNum.lean; filter of a list of observations (`Spec/SccdTrack.lean`) | loop invariant linking filter and segment; law of erasure for skipped observations; ledger across calls |
| C76 | SccdNum.lean over real numbers (`Spec/SccdExact.lean`) | C75's filter of a segment, unfolded; sums over the filter's run by induction; order statistics from the sorting theorem |
| C77 | SccdNum.lean with the matrix routines of Kalman.lean (`Model/SccdKalman.lean`); textbook filter (`Spec/SccdKalman.lean`) | refinement of list states to vectors; filter steps of C33/C58 chained by induction over the segment of C75 |
| C78 | Glmnet.lean: `chkvars`, `standard`, `elnet1`, `elnetu`, `c_glmnet` over real numbers (`Spec/Lasso.lean`) | invariant of table, active set and gradients; each step lowers the objective by half its square, hence termination; subgradients give near-minimality by convexity; change of units and projection on the intercept |
| C79 | ColdNum.lean over real numbers with the solver of Glmnet.lean (`Spec/Quiet.lean`) | course of the loop up to the n-th observation by induction (`ColdVTrack.lean`); range bounds the spread (Popoviciu), hence flat fits (C78), bounded scores and RMSE; angle from a reverse Cauchy-Schwarz inequality |
| C80 | Robust.lean: `gsl_multifit_robust`, `robust_madsigma`, `robust_test_convergence`, `auto_robust_fit` over real numbers, solvers open (`Spec/Robust.lean`) | order statistics of the adjusted residuals bound the weights; zero residuals are kept by induction over the rounds; simulation between two runs of COLD whose regressions agree on six observations |
| C81 | ColdNum.lean over real numbers with the solver of Glmnet.lean (`Spec/Offset.lean`) | simulation between two runs of the whole procedure (`ColdVHom.lean`); the solver of the centred values does not see the constant (`GlmnetOffset.lean`) |
| C82 | Sccd.lean, SccdNum.lean, SccdKalman.lean over real numbers with the solver of Glmnet.lean (`Spec/SccdOffset.lean`) | simulation between two runs of the whole call (`SccdMove.lean`); the level of the filter carries the constant through prediction and update (`SccdOffset.lean`) |
| C83 | ColdNum.lean over real numbers with the true π and the solver of Glmnet.lean (`Spec/Moved.lean`) | simulation between the run and the moved run of the whole procedure (`ColdVMove.lean`); the solver does not see a constant added to the first regressor (`GlmnetSlide.lean`) |
| C84 | `export_change_map.py` `main`, S-CCD branch (ChangeMap.lean) | induction over packs and records; calendar lemmas; witnesses |
| C85 | Recon.lean: `save_obiaresult`, `get_allobiaresult_asarray`, `reconstruct_reccg`, `save_obcoldrecords`, `read_blockdata`, last loop of `main`; `obcold_reconstruct` is any function | names parse back and determine the block; sorting of distinct dates is unique; strides as in C65; witnesses |
| C86 | Pinpoint.lean: pinpoint branch of `step2_KF_ChangeDetection`, `CM_outputs`, second value of `_sccd_detect` (`Spec/Pinpoint.lean`) | invariant of the table of strongest rounds over the records offered; simulation between the loops with and without pinpoint; witnesses |
| C87 | SccdIdentify.lean: tests of `sccd_identify`, `calculate_sccd_cm` over real numbers, with Sccd.lean and SccdNum.lean (`Spec/SccdIdentify.lean`) | what the end of a call stores, as a lemma on the whole call (`mon_model`, `History.snap`); the C and the Python curve agree on six coefficients; median as the middle of any sorted order |
| C88 | Pack.lean: record types, `unindex_sccdpack`, `index_sccdpack`, places of fields in numpy and in C (`Spec/Pack.lean`) | storing a value that fits is the identity, by induction over fields, records and packs; places by evaluation |
| C89 | Pack.lean: `index_sccdpack` of the export, `main` for S-CCD with the directory as state; the maps of a block are any function | number of fields; what the loop over the blocks leaves on disk, by induction |
| C90 | Pack.lean: `main` for COLD and OBCOLD with the directory as state; the maps of a block are any function | induction over blocks and years |
| C91 | Classifier.lean: `predict_features` with its loops and Python indices, the files per year and block as a directory in any order, `classification_block`, the steps 1, 3, 4; `ChangeMap.extractFeatures`, `Tile.assembleArray` | runs = groups by position; invariants of the writing loops; directory invariant by induction over the blocks; C46 and C35 for values and places |
| C92 | Classifier.lean: `generate_sample_num`, the choosing loop, the training rows, step 2; `np.random.choice` is any function returning different indices | counts of sorted unique labels by induction; division lemmas for rounding; induction over the categories |
| C93 | Snapshots.lean: the schedule, the names of the files as strings built from ordinal, year and day of year, directories as functions of names, `obia_execute` as a whole over `Obia.lean` and `Tile.assembleCm` | names are injective (decimal digits contain no underscore); writes with different names commute; C35 for places, C40 and C62 for values; years are monotone in the date |
| C94 | Ranks.lean: `main` of every rank as a list of effects on the output folder (folders, map of paths, file of dates, saved blocks, flag), steps of all ranks in any order, exceptions and waiting as outcomes; the files of a scene are those of `Stack.stackScene` | invariant over all runs: what a rank has done is still there, and the file of dates implies that the folders are; files with different names commute; sum of what is left decreases |
| C95 | Preprocess.lean, ColdNum.lean (`cold`), Obcold.lean, Sccd.lean and Pinpoint.lean as a whole, Fallback.lean; nothing new | screening, extraction and acceptance of scenes commute with filtering; counts of quality codes of a filtered list; induction over the batches |
| C96 | Preprocess.lean, ColdNum.lean (`cold`), Obcold.lean, Sccd.lean and Pinpoint.lean as a whole, Fallback.lean; nothing new | the two series walked together with the date of the last used scene; extraction and appending agree by induction over that walk; the modes without snow are closed under updates |
| C97 | Utils.lean: CPython's `toordinal` and `_ord2ymd`, `get_anchor_days`; spec: leap-year rule, month lengths, the day after | decomposition of years into 400, 100, 4 and 1; months by evaluation over all days of the two kinds of years; induction over days |
| C98 | Utils.lean: `generate_rowcolimage` with the sizes given to `Create` and `WriteArray` | cases over one or several bands; linear arithmetic |
| C99 | Utils.lean: `class_from_dict`, `DatasetInfo` | looking up in a filtered dictionary by induction; division with remainder |
| C100 | Extent.lean: `explode`, `bbox`, `get_extent`; spec: GeoJSON geometries and their positions | mutual induction over geometries; minima and maxima of folds; ceiling |
| C101 | ColdNum.lean (`meanAngle`) in exact arithmetic; spec: same and opposite direction; nothing new | Cauchy–Schwarz with its case of equality by a sum of squares; induction over successive vectors |
| C102 | ColdNum.lean (`meanAngle`) with an arithmetic of 24 significant bits (`Spec/Single.lean`) | evaluation of the rounded square root between two bounds; NaN is kept by induction over the vectors |
| C103 | `int(a / b)`, `int(np.ceil(a / b))` in `common.py`, `utils.py`, `tile_processing.py`, `export_change_map.py`; spec: doubles and rounding to the nearest (`Spec/Double.lean`) | the integer is a double, and no double is as near as the quotient is far from the next integer |

## Where the code does not do what the property says

Each of these is a theorem (named in `MANIFEST.json`) or, where marked (†), an observation from reading that is only
part of the model's comments.

* C10: the first segment of a series that is closed early (category 14) counts one observation too many.
* C11: a long series with many breaks writes past the 40 records; the same for `obcold` (C23).
* C14: `quick_sort_index` recurses for ever on duplicate keys. C15: with two solutions the second is scrambled.
* C18: the year 1973 is accepted but reads an accumulator that was never initialised.
* C21: a starting date after the first scene writes outside the change-magnitude buffer.
* C22: the compaction of the fallback procedures pairs dates with values of other observations (green band of clear
  pixels, all bands of snow pixels), and leaves the thermal band unassigned.
* C23: the last break date can be lost; an index can be read before it is assigned; the mode of the fallback can
  be undetermined.
* C25: a void pack makes `sccd_identify` raise. C26: with `conse` below 8 (the default is 6) the result depends on
  the batching, because phantom observations stay in the tail. C27: with 240 queued observations the newest is lost.
* C30: `sccd_update` does not refuse `conse` above 8 and then reads outside the tail. C53: `conse` 7 reads outside.
* C33: a second model fitted in the same call starts from a matrix in which only the diagonal was reset
  (s_ccd.c 456–466), which need not be a covariance matrix. C59: the snow procedure leaves out the last training
  observation; its measurement noise is the rmse, not its square (s_ccd.c 3263 against 2822) (†).
* C35: tiles whose block grid is not square are assembled wrongly; unreadable maps stop the assembly.
* C36: with the default rank 0 the last block is missed and another done twice.
* C38: with fewer than 16 ranks the classification hangs. C51: a torn map is never repaired, and maps are read while
  they are written. C52: a restart can kill a rank.
* C41: the date reported by `sccd_identify` can be that of a phantom observation; `conse` 7 and 8 raise.
* C42: `b_c2`, `b_monitor_init` and `cm_output_interval` are never validated; booleans accept any integer;
  `sccd_detect` passes `b_monitor_init` where `predictability_tcg` is expected.
* C43: `rows * columns` overflows `int`; the size wraps in `size_t`; `free_2d_array` only looks at the signature.
* C44: the line reader has one sensor buffer for all pixels; the sensor of Landsat 9 is that of the previous scene.
* C47: option 2 of the variogram never ends for a series within 30 days.
* C46: the last day of the last segment gets the fill value. C60: the last record of a block is skipped, the category
  of the last record of a pixel reads the next pixel's record; an unexpected position returns silently.
* C40: `uniform_threshold` and `uniform_sizeslope` are ignored without a classification map, or if only one is given;
  an object whose most frequent class is outside 1–8 and 255 is never change; negative slopes invert the decision.
* `obia_execute` ignores its `floodfill_ratio` argument, and the date interval is 60 days whatever the interval of
  the snapshots (†). `GTiff` files are created with rows and columns exchanged (†).
* C65: for Collection 2 data the scalings of SWIR2 and of the thermal band are swapped (`prepare_ard.py` 1013–1014 and 1494–1495).
* C66: `tile_processing.py` checks `n_cols % block_width`, but `block_width` is `int(n_cols / n_block_x)`: 10 columns in 4 blocks pass and the last two columns are never processed.
* C64: a scene whose name has another character than 4, 5, 7, 8, 9 in the fourth place is reported and then ends the whole rank with an unbound variable; a block with scenes but none in the requested range raises in `get_stack_date`.
* C63: the documented priority of fill is not implemented for Landsat (fill is only what has no other flag).
* Read, not modelled: OBCOLD's call of `cold_detect` in `tile_processing.py` ignores the configured probability threshold; `reconstruct_reccg` does not pass `b_c2`.
* C70: `min_rmse` is the median variogram of the whole series, so that later scenes can undo a confirmed break and lower a change magnitude (`C70_later_scenes_false`); reprocessing a longer series may rewrite history.
* C72: `predict_ref` needs exactly as many coefficients as requested; with its default of six and the eight stored ones it raises.
* C75: `step1_ssm_initialize` sets only the diagonal of `cov_p` (s_ccd.c 456–466). Within one call the rest is left over from the previous segment, in a later call it is zero, so that coefficients of a segment depend on how acquisitions are split into calls (`C75_leftover_covariance`, for a matrix routine that reads the off-diagonal).
* C75: curve and RMSE of the record for the start of the series are fitted including the observation at the break, which belongs to the next segment (`OpenedBy`).
* C76: the RMSE of an S-CCD record is not that of its curve but of the predictions made on the way, with integer-truncated squares (`KF_ts_filter_regular`), over `num_obs - 6`; the error variance of the filter is fixed by the fit to the first observations and never updated.
* C77: the filter of an S-CCD segment uses the first observations twice: once moved back by a whole number of years to burn in the covariance, and then in place; the solver's curve at the start has already used them too (`ByKalman`).
* C78: `maxit` of `c_glmnet` is declared and never passed, so that only convergence ends the solver; proved to happen in exact arithmetic, not in floating point. `jerr` is looked at only after a loop over `lmu`, which is not set when all regressors are constant (all observations on one day; excluded by the date check of C03).
* C78: `thr` is a bound on the last step in standardised units, so the curve is minimal up to `C78_optimal_partial` only.
* C78: `standard` divides by the standard deviation of the values; for a constant series this is 0/0 in C (NaN, every comparison false) and 0 in the model; in both the coefficients stay 0.
* C81: the convergence test of the robust regression (`multirobust.c`) compares steps with the size of the coefficients, intercept included, so the number of rounds, and with it what the screening flags, can depend on a constant added to green or SWIR1; hence the condition on the flags.
* C82: with exactly one usable observation the minimum RMSE of blue is the value of that observation (`adjust_median_variogram`, `misc.c` 115–123), so it follows a constant added to blue; series with one observation are excluded from the claim.
* C83: the regressors of the noise screening include the cycle of the window, whose phase changes with the origin of time; the convergence test of the robust regression compares steps with single coefficients, so the number of rounds, and with it what the screening flags, can depend on the origin; hence the condition on the flags. For shifts that are not multiples of 1461 days the L1 penalty of the LASSO itself depends on the phase, so no such claim holds.
* C84: the export of S-CCD skips the last pack of every block file (the test meant for the last record compares the number of the pack), so its pixel never shows a break; a pack to the left of the block is written to another pixel (negative index).
* C85: the last stage of OBCOLD reads the stack without the bounds on the years that detection was given; a block without scenes makes `read_blockdata` raise (detection passes over such a block), and a block in which every call raises makes `np.hstack` raise, so that the later blocks of that rank are not written; `read_blockdata` is called with the size of the tile and reads only Landsat files; `b_c2` is not passed to `obcold_reconstruct`.
* C86: `gate_tcg > t_cg` with `b_pinpoint=True` loses breaks: the window loop is left at the gate threshold and the change test is never made. Eight observations are copied into a pinpoint record whatever `conse` is, so with `conse <= 6` records near the end hold stale or foreign memory. The buffer of forty pinpoint records is not checked: a record from 1982 on with an anomaly in 41 of the years overflows it. `n_cm` is computed from the last clear date and its array allocated even without pinpoint: for series that end before 1981 the size is negative and `sccd_detect` raises. In void mode the second element returned is a bare array, not a `SccdReccgPinpoint`.
* C87: the default `t_cg_singleband_scale1000 = -200` makes the greening test `red < 200, NIR > -200, SWIR1 < 200`, so a confirmed change that leaves these three bands nearly as they were counts as greening and is not reported (`C87_default_threshold`).
* C89: `imagetool/export_change_map.py` cannot export S-CCD results: its copy of `nrtmodel_dt` has ten fields instead of eleven (five observations per band instead of eight), so `index_sccdpack` raises on every pack with a model; and `np.save` of the block maps is indented into the branch of COLD and OBCOLD, so for S-CCD the files that are put together later are never written (`C89_file_raises`).
* C90: with coefficients asked for, a block without record file saves no map of coefficients, and the export raises when it loads them. (Seen on reading, not modelled: `Create(outfile, rows, cols, ...)` here and in `generate_rowcolimage` passes height and width in the wrong order, so only square tiles can be written.)
* C92: `generate_sample_num` enters the pixels labelled 0 (no category) under index -1, the last category. If the reference map has such pixels and none of the last category, `np.random.choice` is asked for samples of an empty category and training raises (`C92_background`). (With an unsigned reference map, NumPy 2 raises already at the index.)
* C91: seen on reading, not modelled: `step3_classification_sccd` reads `tmp_feature_now_block{}.npy`, which nothing in the repository writes, so the S-CCD path of the classifier always raises unless these files come from elsewhere.
* C93: cover maps are predicted for `range(year_lowbound, year_uppbound)`, which is empty when all snapshots lie in one calendar year; the object analysis with a seed map then raises on the second snapshot (`C93_one_year`). A dataset shorter than the interval has only one snapshot, so no break at all (`C93_first`).
* C94: the ranks take `starting_last_dates.txt` as the sign that the folders are there. If that file is left from a run with other blocks, the other ranks do not wait, and a rank that saves into a folder not made yet ends with an exception (`C94_leftover`). If rank 1 does not run, the others wait for ever (`C94_waits`).
* C95: `inefficientobs_procedure` (cold.c 5166–5168) selects scenes by range only and not by quality code, so that for pixels with fewer than 24 clear observations the cloudy ones are fitted, too (`C95_fallback_clouds`).
* C96: in the fallback for too few clear observations the thermal value of the last selected scene is stored as that of the first, so that a repeated scene of the last day, otherwise dropped, does change the record (`C96_few_repeat`). The snow mode of S-CCD stores clear scenes whose values are out of range (`C96_snow_mode`).
* C97: the day numbers are Python ordinals; MATLAB's are 366 larger, whatever the names `date2matordinal` and `matordinal2date` say.
* C98: `generate_rowcolimage` passes rows and columns to `Create` in the wrong order, so that rectangular images raise (`C98_rectangular`), and takes the first two of three dimensions of images with several bands (`C98_bands`).
* C102: `MeanAngl_float` (misc.c 3033) takes `acosf` of a quotient that may be rounded to a number above 1, which gives NaN; for example for equal vectors (4, 4, 0, 0, 0). COLD then does not confirm the break (`mean_angle < NSIGN`, cold.c 4314), S-CCD does (`mean_angle > NSIGN` rejects, s_ccd.c 1956), and converts the NaN to `short int`, which is undefined (s_ccd.c 1969; `C102_stored`). `angl_scatter_measure`, which is not called, guards against it (`C102_refused`).

## Axioms by theorem

From `#print axioms` for every theorem in `MANIFEST.json`.

* no axioms: C17_too_far, C51_map_read_while_written, C52_restart_can_kill_a_rank, Pack.C88_places

* `propext`: Sccd.C03_sccd_unchecked, C04_missing_thermal_stored_out_of_range, Sccd.C25_identify_void_raises, Sccd.C30_conse_refused, Sccd.C30_short_span_refused, Sccd.C53_conse_7_out_of_bounds, Array2d.C43_int_overflow, Array2d.C43_free_foreign, Bip.C44_missing_file, Bip.C44_sensors_shared, Bip.C44_landsat9, Obia.C62_pixel, Sccd.Toy.C86_gate_above_threshold, Sccd.Toy.C86_past_the_end, Sccd.Toy.C86_buffer_overflow, Pack.C88_other_lists, Utils.C99_others

* `Quot.sound`, `propext`: C03_date_order, C45_single_record_ignored, C21_python_sizing, C48_break_test, C35_cm_maps_wide, C36_default_rank_repeats, C49_split, Sccd.C26_default_conse_refuted, Sccd.C41_phantom_date, Sccd.C41_conse_5_late, Array2d.C43_free_checks, Bip.C44_positions, ChangeMap.C46_unique_segment, ChangeMap.C46_before_first, ChangeMap.C46_last_day, Stack.C65_unscaled, Stack.C66_divides, Stack.C66_cover_partial, Stack.C66_lost, Stack.C66_check_insufficient, Recon.C85_every_pixel_once, Recon.C85_saved, Recon.C85_all_fail_raises, Pack.C88_round_trip, Pack.C88_file, Pack.C89_read_iff, Pack.C89_model_raises, Pack.C89_file_raises, Pack.C89_maps_without_packs, Classifier.C91_sorted, Utils.C97_anchors, Utils.C98_exactly, Utils.C98_rectangular, Utils.C98_bands, Utils.C99_made, Utils.C99_cover, Extent.C100_raises

* `Classical.choice`, `Quot.sound`, `propext`: C01_screening, C02_unknown_qa, Sccd.C02_sccd_detect, Sccd.C02_sccd_update, C03_cold_detect, C03_inversion, C03_obcold_reconstruct, C04_strictly_increasing, C04_membership, C04_complete, C18_ordinal, C18_refused, C18_1973_depends_on_garbage, C18_1973_refuted, C19_jday_to_calendar, C19_round_trip, C19_round_trip_back, C20_yearmonth2doy, C20_december, C45_first_degradation, C05_terminates, C06_no_invalid_access, C07_segments_ordered, C07_disjoint, C08_dates_are_observations, C09_category_and_probability, C09_last_probability, C10_num_obs, C10_first_segment_overcounts, C11_buffer_partial, C11_overrun, C21_change_magnitudes, C21_late_start_out_of_bounds, C48_breaks_confirmed, C48_monitoring, C48_look_back, C12_model_size, C12_model_size_sccd, C13_sorts, C13_sorts_list, C14_rows_stay_paired, C14_index_sort, C14_index_sort_duplicate_keys_diverges, C15_lasso_scatter, C15_second_solution_scrambled, C16_median, C16_partial_median, C17_nearest, C47_date_variogram, C47_band_variogram, C47_lag_found, C47_short_span_never_ends, C34_read_back, C34_bijection, C35_assembly_partial, C35_assembly_not_square, C35_cm_maps_partial, C35_cm_maps_tall, C35_cm_maps_missing_file, C36_blocks, C36_export, C36_dates, C36_default_rank_misses_last, C37_finished_is_complete, C37_rerun_completes, C50_magnitudes_stay_aligned, C50_failing_pixel_stops_rank, C38_no_deadlock, C38_finished_means_produced, C38_fewer_than_16_ranks_hang, C51_missing_maps_are_completed_partial, C51_torn_map_is_never_repaired, C52_restart_partial, Sccd.C24_terminates, Sccd.C24_every_observation, Sccd.C25_contents, Sccd.C25_accepted, Sccd.C25_never_void_again, Sccd.C25_identify_accepts, Sccd.C26_stored_tail, Sccd.C26_any_batching_partial, Sccd.C26_phantom_observations, Sccd.C27_queue_complete_partial, Sccd.C27_newest_queued, Sccd.C27_newest_lost, Sccd.C28_unchanged, Sccd.C28_same_date, Sccd.C29_recovered_iff, Sccd.C30_packed, Sccd.C30_update_large_conse_out_of_bounds, Sccd.C31_snow, Sccd.C41_reported_iff, Sccd.C41_strength, Sccd.C41_strength_detect, Sccd.C41_date_after_detect_partial, Sccd.C41_date_after_update_partial, Sccd.C41_conse_7_8_raises, Sccd.C53_in_bounds_partial, Sccd.C54_records_of_first_call, Sccd.C54_records_of_sequences_partial, Sccd.C55_spacing, Sccd.C55_span_of_first_call, Sccd.C55_buffer, Sccd.C55_spacing_sequences, Sccd.C55_span_of_sequences, Sccd.C55_buffer_sequences, Sccd.C56_confirmed, Sccd.C56_confirmed_detect, Sccd.C57_change_model, Sccd.C57_identify_returns_break, Fallback.ofCold_eq, Fallback.C22_snow_partial, Fallback.C22_snow_mispaired, Fallback.C22_clear_exact_partial, Fallback.C22_clear_occurred_partial, Fallback.C22_thermal_unassigned, Fallback.C22_total, Fallback.C22_clear_green_mispaired, Obcold.C23_segments, Obcold.C23_records, Obcold.C23_outcomes, Obcold.C23_last_break_lost, Obcold.C23_unassigned_index, Obcold.C23_fallback_undetermined, Obcold.C23_overrun, Kalman.C32_round_trip, Kalman.C32_round_trip_state, Kalman.C32_prediction, Kalman.C32_days, Kalman.C32_noise, Kalman.C33_textbook, Kalman.C33_monitoring, Kalman.C33_first_model_partial, Kalman.C33_second_model, Kalman.C58_update, Kalman.C58_closer, Kalman.C59_window_partial, Kalman.C59_every_observation, Kalman.C59_snow_last_left_out, Validation.C42_cold_detect_partial, Validation.C42_obcold_reconstruct_partial, Validation.C42_sccd_detect_partial, Validation.C42_sccd_update_partial, Validation.C42_sccd_identify, Validation.C42_parameters, Validation.C42_nan_refused, Validation.C42_b_c2_not_validated, Validation.C42_cm_output_interval_not_validated, Array2d.C43_matrices, Array2d.C43_cells, Array2d.C43_size_wraps, Bip.C44_pixel, Bip.C44_line_partial, ChangeMap.C46_features, ChangeMap.C46_year, ChangeMap.C46_gap, ChangeMap.C46_other_names, ChangeMap.C46_cv, ChangeMap.C60_no_break, ChangeMap.C60_break_map_partial, ChangeMap.C60_obcold_partial, ChangeMap.C60_obcold_kinds_unique, ChangeMap.C60_day_of_year, ChangeMap.C60_last_record_skipped, ChangeMap.C60_next_pixel_read, ChangeMap.C61_recent, ChangeMap.C61_first, ChangeMap.C61_sound, Obia.C39_labels, Obia.C39_covered, Obia.C39_magnitude, Obia.C39_connected, Obia.C39_support, Obia.C40_monotone, Obia.C40_size_monotone, Obia.C40_change_map, Obia.C40_background, Obia.C40_uniform_ignored, Obia.C40_shipped, Obia.C40_negative_slope, Obia.labels_exist, Obia.C62_date, Stack.C63_hls, Stack.C63_landsat_partial, Stack.C63_fill_flag_loses, Stack.C64_stack, Stack.C64_observation, Stack.C64_schedule, Stack.C64_names, Stack.C64_unknown_satellite, Stack.C65_first_bands_partial, Stack.C65_swir2_wrong, Stack.C65_thermal_wrong, Stack.C67_bounds, Stack.C68_scenes, C69_refines, C69_record_data, C70_later_scenes_partial, C70_later_scenes_false, C71_blue_thermal, C72_fit, C72_record_curve, C72_predict, C72_predict_record, C73_cm_range, C73_magnitude, C73_magnitude_first, C73_angle_weight, C73_nearest_rmse, SccdNum.C74_blue_thermal, SccdNum.C75_first_call, SccdNum.C75_sequences_partial, SccdNum.C75_passed_over, SccdNum.Toy.C75_leftover_covariance, SccdNum.C76_first_call, SccdNum.C76_sequences_partial, SccdNum.C77_same_filter, SccdNum.C77_innovation, SccdNum.C77_first_segment_partial, SccdNum.C77_towards, Glmnet.C78_terminates, Glmnet.C78_optimal_partial, Glmnet.C78_optimal_one, Glmnet.C78_not_minimal, Glmnet.C78_sizes, Glmnet.C78_flat, Glmnet.C78_curve_partial, Glmnet.C78_cold_record_partial, Glmnet.C78_sccd_fit_partial, ColdNum.C79_no_break, ColdNum.C79_one_segment, ColdNum.C79_step_found, C81_offset, C81_offset_unscreened, C81_offset_equivariant, Robust.C80_weighted, Robust.C80_majority_close, Robust.C80_on_curve, Robust.C80_not_flagged, Robust.C80_scale, Robust.C80_leverage, C80_enough, C80_no_refusal, SccdNum.C82_detect, SccdNum.C82_detect_unscreened, SccdNum.C82_detect_equivariant, C83_moved, C83_moved_origin_free, C83_curve, ChangeMap.C84_no_break, ChangeMap.C84_break_map_partial, ChangeMap.C84_last_pixel_empty, ChangeMap.C84_left_of_block, Recon.C85_block_partial, Recon.C85_no_scenes_raises, Recon.C85_no_stack_raises, Recon.C85_bounds_ignored, Sccd.C86_same_output, Sccd.C86_pinpoints, Sccd.C86_fails, Sccd.C86_overdetection, Sccd.C86_short_window, Sccd.C86_observations, SccdNum.C87_after_detect, SccdNum.C87_after_update, SccdNum.C87_confirmed, SccdNum.C87_default_threshold, Pack.C89_no_files_partial, Pack.C89_coefs_raise, Pack.C90_break_maps, Pack.C90_missing_with_coefs, Classifier.C91_cover_maps_partial, Classifier.C91_uncovered, Classifier.C91_covered, Classifier.C91_not_square, Classifier.C92_training_partial, Classifier.C92_background, Classifier.C92_no_labels, Classifier.C92_other_year, Snapshots.C93_slots, Snapshots.C93_first, Snapshots.C93_snapshot_partial, Snapshots.C93_cover, Snapshots.C93_one_year, Snapshots.C93_result, Ranks.C94_no_exception_partial, Ranks.C94_ends, Ranks.C94_result, Ranks.C94_flag, Ranks.C94_waits, Ranks.C94_leftover, Hidden.C95_cold, Hidden.C95_obcold, Hidden.C95_sccd, Hidden.C95_detect, Hidden.C95_pinpoint, Hidden.C95_session, Hidden.C95_snow, Hidden.C95_fallback_clouds, Repeats.C96_cold, Repeats.C96_obcold, Repeats.C96_sccd, Repeats.C96_detect, Repeats.C96_update, Repeats.C96_pinpoint, Repeats.C96_session, Repeats.C96_few, Repeats.C96_snow_mode, Repeats.C96_few_repeat, Utils.C97_there_and_back, Utils.C97_back_and_there, Utils.C97_next, Utils.C97_counts, Utils.C98_names, Utils.C99_raises, Extent.C100_bbox, Extent.C100_extent, Extent.C100_contains, Turn.C101_lengths, Turn.C101_reverse, Turn.C101_aligned, Turn.C101_opposite, Single.C102_one_band_partial, Single.C102_nan, Single.C102_refused, Single.C102_stored, Double.C103_floor, Double.C103_ceil, Double.C103_sum, Double.C103_model, Double.C103_blocks, Double.C103_large
