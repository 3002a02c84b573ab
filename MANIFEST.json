{
 "claims": [
  {
   "property": "C01",
   "status": "proved",
   "theorems": [
    "Pyinterp.C01_normalize_angle",
    "Pyinterp.C01_unique",
    "Pyinterp.C01_idempotent",
    "Pyinterp.C01_periodic",
    "Pyinterp.C01_normalize_angle_int",
    "Pyinterp.C01_remainder_sign"
   ],
   "note": "real (ordered field) and integer versions"
  },
  {
   "property": "C02",
   "status": "proved",
   "theorems": [
    "Pyinterp.C02_axis_accepts_iff_monotone",
    "Pyinterp.C02_axis_accepts_iff_monotone_int",
    "Pyinterp.C02_coordinates_monotone",
    "Pyinterp.C02_coordinates_exist"
   ],
   "note": "for every way of building an axis"
  },
  {
   "property": "C03",
   "status": "proved",
   "theorems": [
    "Pyinterp.C03_find_index_irregular"
   ],
   "note": "non-angle axes"
  },
  {
   "property": "C04",
   "status": "proved",
   "theorems": [
    "Pyinterp.C04_find_index",
    "Pyinterp.C04_far_outside"
   ],
   "note": "up to half a step outside the axis the end index is returned; statement adapted"
  },
  {
   "property": "C05",
   "status": "partial",
   "theorems": [
    "Pyinterp.C05_find_index_int_partial",
    "Pyinterp.C05_descending_wrong",
    "Pyinterp.C05_descending_front_lost"
   ],
   "note": "true for ascending-built axes; false (witness) for descending regular integral axes"
  },
  {
   "property": "C06",
   "status": "proved",
   "theorems": [
    "Pyinterp.C06_find_indexes",
    "Pyinterp.C06_find_indexes_int_partial",
    "Pyinterp.C06_int_descending_wrong"
   ],
   "note": "floating point axes of at least 2 coordinates; integral axes as in C05"
  },
  {
   "property": "C07",
   "status": "partial",
   "theorems": [
    "Pyinterp.C07_window_partial",
    "Pyinterp.C07_sym_out_of_range",
    "Pyinterp.C07_descending_wrong"
   ],
   "note": "ascending axes; false on descending axes and for sym windows wider than the axis (witnesses)"
  },
  {
   "property": "C08",
   "status": "proved",
   "theorems": [
    "Pyinterp.C08_flip_reverses",
    "Pyinterp.C08_flip_involutive",
    "Pyinterp.C08_flip_search"
   ],
   "note": ""
  },
  {
   "property": "C09",
   "status": "partial",
   "theorems": [
    "Pyinterp.C09_pickle_identity_partial",
    "Pyinterp.C09_angle_lost",
    "Pyinterp.C09_int_flip_wrong",
    "Pyinterp.C09_single_refused"
   ],
   "note": "identity for non-angle or full-circle axes of size at least 2; witnesses where it fails"
  },
  {
   "property": "C10",
   "status": "proved",
   "theorems": [
    "Pyinterp.C10_access",
    "Pyinterp.C10_slice",
    "Pyinterp.C10_python_slice",
    "Pyinterp.C10_step_zero"
   ],
   "note": ""
  },
  {
   "property": "C100",
   "status": "partial",
   "theorems": [
    "Pyinterp.GeoTree.C100_contents",
    "Pyinterp.GeoTree.C100_new",
    "Pyinterp.GeoTree.C100_refused",
    "Pyinterp.GeoTree.C100_points",
    "Pyinterp.GeoTree.C100_turn",
    "Pyinterp.GeoTree.C100_turn_stored",
    "Pyinterp.GeoTree.C100_query",
    "Pyinterp.GeoTree.C100_idw",
    "Pyinterp.GeoTree.C100_window_partial",
    "Pyinterp.GeoTree.C100_rbf_partial",
    "Pyinterp.GeoTree.C100_rbf_nodes",
    "Pyinterp.GeoTree.C100_pickle",
    "Pyinterp.GeoTree.C100_copy_false"
   ],
   "note": "Boost (index, andoyer distance, envelope) is a parameter; idw and window assume that the index and the tree use the same distance, which is the case of the default spheroid only (finding). Window functions as in C55 (flat_top excluded); radial basis functions assume the system invertible. Copies share the content (C100_copy_false)."
  },
  {
   "property": "C101",
   "status": "partial",
   "theorems": [
    "Pyinterp.Geohash.C101_where",
    "Pyinterp.Geohash.C101_within",
    "Pyinterp.Geohash.C101_box_partial",
    "Pyinterp.Geohash.C101_pair_false",
    "Pyinterp.Geohash.C101_refused"
   ],
   "note": "False for a code that fills exactly two cells: only the first cell is in the ranges (C101_pair_false); all other rectangles are proved, and the exact result of any layout (C101_where)."
  },
  {
   "property": "C102",
   "status": "partial",
   "theorems": [
    "Pyinterp.Geohash.C102_filter",
    "Pyinterp.Geohash.C102_which_partial",
    "Pyinterp.Geohash.C102_single",
    "Pyinterp.Geohash.C102_precision",
    "Pyinterp.Geohash.C102_false_missing",
    "Pyinterp.Geohash.C102_false_dateline"
   ],
   "note": "Envelope and intersection of Boost are parameters. The cells of the last row and column of the envelope are missing (C102_false_missing); an envelope beyond 180 degrees is undefined behaviour (C102_false_dateline)."
  },
  {
   "property": "C103",
   "status": "proved",
   "theorems": [
    "Pyinterp.Geohash.C103_decode",
    "Pyinterp.Geohash.C103_decode_total",
    "Pyinterp.Geohash.C103_encode",
    "Pyinterp.Geohash.C103_round_trip",
    "Pyinterp.Geohash.C103_refused",
    "Pyinterp.Geohash.C103_precision",
    "Pyinterp.Geohash.C103_bad_element"
   ],
   "note": "Precision 0 and empty elements are undefined behaviour (C103_precision, C103_bad_element)."
  },
  {
   "property": "C104",
   "status": "partial",
   "theorems": [
    "Pyinterp.Geohash.C104_grid",
    "Pyinterp.Geohash.C104_whole_earth",
    "Pyinterp.Geohash.C104_units_false"
   ],
   "note": "The units are exchanged (C104_units_false); the rest is proved for boxes on the Earth."
  },
  {
   "property": "C105",
   "status": "partial",
   "theorems": [
    "Pyinterp.Geohash.C105_to_xarray",
    "Pyinterp.Geohash.C105_refused",
    "Pyinterp.Geohash.C105_units_false"
   ],
   "note": "Codes of the full length of the elements, data of one dimension; the units are exchanged (C105_units_false)."
  },
  {
   "property": "C106",
   "status": "partial",
   "theorems": [
    "Pyinterp.Delayed.C106_binning2d",
    "Pyinterp.Delayed.C106_dtype_false",
    "Pyinterp.Delayed.C106_binning1d_partial",
    "Pyinterp.Delayed.C106_range_false",
    "Pyinterp.Delayed.C106_histogram",
    "Pyinterp.Delayed.C106_bin_counts_false"
   ],
   "note": "Proved for every partition and every tree of additions, simple and linear, on the plane and on any spheroid. False (witnesses proved): the type float32, the range of Binning1D and the number of bins of Histogram2D are lost by push_delayed."
  },
  {
   "property": "C107",
   "status": "partial",
   "theorems": [
    "Pyinterp.Delayed.C107_axis0_partial",
    "Pyinterp.Delayed.C107_none_partial",
    "Pyinterp.Delayed.C107_first_axis_kept_false",
    "Pyinterp.Delayed.C107_undefined_block_false",
    "Pyinterp.Delayed.C107_histogram",
    "Pyinterp.Delayed.C107_histogram_none"
   ],
   "note": "Proved when the first axis is reduced and, for the descriptive statistics, when each cell of each block has a defined element. False otherwise (witnesses proved): the blocks are merged although the first axis is kept; a block without defined element gives a minimum 0 or NaN."
  },
  {
   "property": "C108",
   "status": "partial",
   "theorems": [
    "Pyinterp.Variable.C108_variable",
    "Pyinterp.Variable.C108_history",
    "Pyinterp.Variable.C108_mixed",
    "Pyinterp.Variable.C108_variable1d",
    "Pyinterp.Variable.C108_skewness",
    "Pyinterp.Variable.C108_unknown",
    "Pyinterp.Variable.C108_clear_false"
   ],
   "note": "Proved for every sequence of pushes, simple and linear (on the plane and on any spheroid), and for Binning1D with positive weights; the skewness on real numbers. False: variable('clear') is accepted, returns None and erases the statistics. Not modelled: names beginning with an underscore."
  },
  {
   "property": "C109",
   "status": "partial",
   "theorems": [
    "Pyinterp.PeriodPy.C109_units",
    "Pyinterp.PeriodPy.C109_weeks_false",
    "Pyinterp.PeriodPy.C109_init",
    "Pyinterp.PeriodPy.C109_contains_date",
    "Pyinterp.PeriodPy.C109_before_after",
    "Pyinterp.PeriodPy.C109_coarser_partial",
    "Pyinterp.PeriodPy.C109_same_unit",
    "Pyinterp.PeriodPy.C109_finer_false",
    "Pyinterp.PeriodPy.C109_as_resolution",
    "Pyinterp.PeriodPy.C109_as_resolution_false",
    "Pyinterp.PeriodPy.C109_adjacent_false",
    "Pyinterp.PeriodPy.C109_compare_false",
    "Pyinterp.PeriodPy.C109_pickle"
   ],
   "note": "Proved for dates of any unit, and for two periods when the units of the second one subdivide those of the first one (is_adjacent, merge, ==, <: same units). False otherwise (witnesses proved): as_resolution to finer units keeps only the beginning of the last unit."
  },
  {
   "property": "C11",
   "status": "proved",
   "theorems": [
    "Pyinterp.Dateutils.C11_round_trip",
    "Pyinterp.Dateutils.C11_round_trip'",
    "Pyinterp.Dateutils.C11_consecutive",
    "Pyinterp.Dateutils.C11_monotone",
    "Pyinterp.Dateutils.C11_no_int32_overflow",
    "Pyinterp.Dateutils.C11_milliseconds_in_range"
   ],
   "note": "for units of seconds, int (32-bit) overflow is possible for years beyond 2^31; excluded by the range theorem"
  },
  {
   "property": "C110",
   "status": "partial",
   "theorems": [
    "Pyinterp.PeriodPy.C110_belong",
    "Pyinterp.PeriodPy.C110_cross",
    "Pyinterp.PeriodPy.C110_merge",
    "Pyinterp.PeriodPy.C110_merge_false",
    "Pyinterp.PeriodPy.C110_within",
    "Pyinterp.PeriodPy.C110_within_false",
    "Pyinterp.PeriodPy.C110_filter",
    "Pyinterp.PeriodPy.C110_join",
    "Pyinterp.PeriodPy.C110_close",
    "Pyinterp.PeriodPy.C110_close_tolerance",
    "Pyinterp.PeriodPy.C110_pickle"
   ],
   "note": "Proved for dates of any unit, durations of constant length, and lists of the same unit. False (witnesses proved): within and intersection do not convert the unit of the period, merge refuses lists of different units."
  },
  {
   "property": "C111",
   "status": "partial",
   "theorems": [
    "Pyinterp.FillPy.C111_grid2D",
    "Pyinterp.FillPy.C111_grid3D",
    "Pyinterp.FillPy.C111_values",
    "Pyinterp.FillPy.C111_refused",
    "Pyinterp.FillPy.C111_default_relaxation",
    "Pyinterp.FillPy.C111_no_iteration_false"
   ],
   "note": "False part proved: with max_iteration=0 the function reports convergence although nothing was relaxed. Grids with a single column (or a single row when not circular) are outside of the theorems (C50_one_row_false). Exact arithmetic; the steps of a task are the iterations."
  },
  {
   "property": "C112",
   "status": "partial",
   "theorems": [
    "Pyinterp.FillPy.C112_in_place",
    "Pyinterp.FillPy.C112_vector_float",
    "Pyinterp.FillPy.C112_vector_int",
    "Pyinterp.FillPy.C112_vector_refused",
    "Pyinterp.FillPy.C112_default_fill_false",
    "Pyinterp.FillPy.C112_matrix",
    "Pyinterp.FillPy.C112_matrix_float32_false",
    "Pyinterp.FillPy.C112_matrix_refused"
   ],
   "note": "False parts proved: matrix always raises for float32 arrays, after having modified the array of the caller; the default filling value is refused for integers and dates. 2^63-1 as filling value: C52_max_int_false."
  },
  {
   "property": "C113",
   "status": "partial",
   "theorems": [
    "Pyinterp.DateArray.C113_calendar",
    "Pyinterp.DateArray.C113_since_january",
    "Pyinterp.DateArray.C113_datetime",
    "Pyinterp.DateArray.C113_refused",
    "Pyinterp.DateArray.C113_far_false",
    "Pyinterp.DateArray.C113_nat_false",
    "Pyinterp.DateArray.C113_since_january_false"
   ],
   "note": "Every unit and array, with machine integers. False: a count of seconds beyond the year 2.147e9 (NaT of datetime64[s] is one) overflows 32 bits in every function of the date; NaT of the finer units is taken for a date; timedelta_since_january of any date before 1970 in ps, fs or as overflows 64 bits."
  },
  {
   "property": "C114",
   "status": "proved",
   "theorems": [
    "Pyinterp.CoordArray.C114_lla_to_ecef",
    "Pyinterp.CoordArray.C114_ecef_to_lla",
    "Pyinterp.CoordArray.C114_transform",
    "Pyinterp.CoordArray.C114_round_trip"
   ],
   "note": "Real arithmetic; the three stores of an iteration are one step."
  },
  {
   "property": "C115",
   "status": "partial",
   "theorems": [
    "Pyinterp.CoordArray.C115_normalized",
    "Pyinterp.CoordArray.C115_idempotent",
    "Pyinterp.CoordArray.C115_unchanged_false"
   ],
   "note": "False for a writeable array that is not contiguous or not of float64: the second overload normalises a copy that Python drops, and the array is returned unchanged."
  },
  {
   "property": "C116",
   "status": "partial",
   "theorems": [
    "Pyinterp.RTree.C116_init",
    "Pyinterp.RTree.C116_init_refused",
    "Pyinterp.RTree.C116_history",
    "Pyinterp.RTree.C116_pickle",
    "Pyinterp.RTree.C116_pickle_false",
    "Pyinterp.RTree.C116_core_pickle",
    "Pyinterp.RTree.C116_query_outside",
    "Pyinterp.RTree.C116_query_default_false",
    "Pyinterp.RTree.C116_window",
    "Pyinterp.RTree.C116_copy"
   ],
   "note": "The claim on the pickle is false of the code: C116_pickle shows that the restored Python mesh is always empty, WGS84 and not ecef, C116_pickle_false characterises the meshes that survive (rests on the behaviour of pybind11, which ignores __setstate__ on an instance that already holds a C++ object; stated in the comment of coreSetstate). The documented default within=False of query is not that of the code (C116_query_default_false)."
  },
  {
   "property": "C117",
   "status": "partial",
   "theorems": [
    "Pyinterp.C117_eq",
    "Pyinterp.C117_eq_equivalence",
    "Pyinterp.C117_eq_same",
    "Pyinterp.C117_copy",
    "Pyinterp.C117_flip_inplace",
    "Pyinterp.C117_flip_copy_partial",
    "Pyinterp.C117_flip_copy_false",
    "Pyinterp.C117_flip_single_false",
    "Pyinterp.C117_increment",
    "Pyinterp.C117_eq_angle_false",
    "Pyinterp.C117_eq_regular_false"
   ],
   "note": "False parts proved: flip(inplace=False) goes through the pickle and loses the nature of a regional longitude axis, and raises for a regular axis of one coordinate; == ignores whether the axis is an angle and distinguishes regular and irregular storage of the same coordinates."
  },
  {
   "property": "C118",
   "status": "partial",
   "theorems": [
    "Pyinterp.Delayed.C118_new",
    "Pyinterp.Delayed.C118_pickle",
    "Pyinterp.Delayed.C118_sum",
    "Pyinterp.Delayed.C118_invalid",
    "Pyinterp.Delayed.C118_copy_false",
    "Pyinterp.Delayed.C118_sum_ranges_false"
   ],
   "note": "The pickling is proved for axes of at least two coordinates (circular when they are angles: C09). False: copy.copy of a core.Binning1D is a Binning2D without range; += adds binnings with different ranges."
  },
  {
   "property": "C119",
   "status": "partial",
   "theorems": [
    "Pyinterp.PyObjects.C119_values",
    "Pyinterp.PyObjects.C119_copy_independent",
    "Pyinterp.PyObjects.C119_sharing_false",
    "Pyinterp.PyObjects.C119_refused"
   ],
   "note": "Proved for programs with constructors, copy(), +=, push and clear (C119_values), and for copy() in any program (C119_copy_independent). False for copy.copy and +, which share the C++ object of the left operand: C119_sharing_false."
  },
  {
   "property": "C12",
   "status": "proved",
   "theorems": [
    "Pyinterp.Dateutils.C12_decomposition",
    "Pyinterp.Dateutils.C12_coarse_units"
   ],
   "note": ""
  },
  {
   "property": "C120",
   "status": "partial",
   "theorems": [
    "Pyinterp.Double.C120_encode",
    "Pyinterp.Double.C120_python",
    "Pyinterp.Double.C120_decode",
    "Pyinterp.Double.C120_north_pole_false"
   ],
   "note": "Backward error of both encoders with the rounding of binary64; the claim is false for the last double below 90 (latitude) or 180 (longitude, C++ only): witness proved. Overflow, NaN and fused operations are not modelled."
  },
  {
   "property": "C121",
   "status": "partial",
   "theorems": [
    "Pyinterp.Double.C121_range",
    "Pyinterp.Double.C121_same_angle",
    "Pyinterp.Double.C121_half_open_false"
   ],
   "note": "Closed interval [min, min + 360] and same angle up to rounding; the half-open interval promised in exact arithmetic (C01) is false with doubles: witness proved."
  },
  {
   "property": "C122",
   "status": "partial",
   "theorems": [
    "Pyinterp.Double.C122_bounds",
    "Pyinterp.Double.C122_monotone",
    "Pyinterp.Double.C122_round_trip",
    "Pyinterp.Double.C122_frame",
    "Pyinterp.Double.C122_outside",
    "Pyinterp.Double.C122_nearest",
    "Pyinterp.Double.C122_last_value_false",
    "Pyinterp.Double.C122_pickle_false",
    "Pyinterp.Double.C122_flip_false"
   ],
   "note": "Partial because the last value, pickling and double flip are refuted by witnesses. Spacing: at most 2^47 values, first value at most 2^47 steps, range in [2^-900, 2^900]. Angles (circles) and irregular axes: C125."
  },
  {
   "property": "C123",
   "status": "partial",
   "theorems": [
    "Pyinterp.Double.C123_bilinear_corners",
    "Pyinterp.Double.C123_bilinear_error",
    "Pyinterp.Double.C123_linear",
    "Pyinterp.Double.C123_linear1d",
    "Pyinterp.Double.C123_linear1d_false",
    "Pyinterp.Double.C123_grid_node",
    "Pyinterp.Double.C123_grid_value",
    "Pyinterp.Double.C123_grid_outside",
    "Pyinterp.Double.C123_grid_nan"
   ],
   "note": "Partial because interpolate1d is not exact at the second point of an interval (witness). Axes that are angles or irregular: C125. Nearest and IDW with doubles are not covered; overflow is not modelled."
  },
  {
   "property": "C124",
   "status": "partial",
   "theorems": [
    "Pyinterp.Double.C124_variance",
    "Pyinterp.Double.C124_mean_between",
    "Pyinterp.Double.C124_mean_error",
    "Pyinterp.Double.C124_variance_error",
    "Pyinterp.Double.C124_mixed_false",
    "Pyinterp.Double.C124_weighted_mean_false",
    "Pyinterp.Double.C124_variance_nan"
   ],
   "note": "Proved for all histories without overflow (the model has no infinity); moments 3 and 4 have no error bound. False for weights below 1 mixed with unweighted values (negative variance: C124_mixed_false), and the mean of weighted values can leave the hull (C124_weighted_mean_false)."
  },
  {
   "property": "C125",
   "status": "partial",
   "theorems": [
    "Pyinterp.Double.C125_frame",
    "Pyinterp.Double.C125_outside",
    "Pyinterp.Double.C125_seam",
    "Pyinterp.Double.C125_never_lost",
    "Pyinterp.Double.C125_nearest",
    "Pyinterp.Double.C125_grid_value",
    "Pyinterp.Double.C125_grid_node",
    "Pyinterp.Double.C125_nearest_false",
    "Pyinterp.Double.C125_seam_value_false",
    "Pyinterp.Double.C125_cell_value_false",
    "Pyinterp.Double.C125_unwrap_increasing",
    "Pyinterp.Double.C125_unwrap_decreasing",
    "Pyinterp.Double.C125_unwrap_false",
    "Pyinterp.Double.C125_circle_irregular",
    "Pyinterp.Double.C125_circle_descending",
    "Pyinterp.Double.C125_circle_regular"
   ],
   "note": "Partial because the nearest is not exact and the interpolation leaves the range of the values at longitudes that round to the end of a turn (witnesses). The grid theorems are for longitudes already normalised (Plain). Regular axes: bounds of Spacing; circles: longitudes below 2^20 degrees, steps above 2^-38 (Moderate). Overflow is not modelled. Longitudes that cross the origin and are closer than the rounding of 360 are refused (C125_unwrap_false)."
  },
  {
   "property": "C126",
   "status": "proved",
   "theorems": [
    "Pyinterp.Double.C126_grid3_value",
    "Pyinterp.Double.C126_grid3_node",
    "Pyinterp.Double.C126_grid4_value",
    "Pyinterp.Double.C126_grid4_node",
    "Pyinterp.Double.C126_grid3_methods",
    "Pyinterp.Double.C126_grid4_methods",
    "Pyinterp.Double.C126_grid3_outside",
    "Pyinterp.Double.C126_grid4_outside",
    "Pyinterp.Double.C126_grid3_nan"
   ],
   "note": "Axes: bounds of Spacing for regular ones, neighbours at least 2^-1010 apart (2^-400 along an axis with the nearest method); longitudes already normalised (Plain; see C125 for what is false at the end of a turn). NaN stated in three dimensions. No overflow in the model."
  },
  {
   "property": "C127",
   "status": "partial",
   "theorems": [
    "Pyinterp.Double.C127_bookkeeping",
    "Pyinterp.Double.C127_max_partial",
    "Pyinterp.Double.C127_hull",
    "Pyinterp.Double.C127_mean",
    "Pyinterp.Double.C127_quantile",
    "Pyinterp.Double.C127_quantile_value",
    "Pyinterp.Double.C127_quantile_zero",
    "Pyinterp.Double.C127_quantile_weights_false",
    "Pyinterp.Double.C127_hull_false",
    "Pyinterp.Double.C127_sorted_false"
   ],
   "note": "Proved for every history of pushes of weight 1, merges, resizes and clears. False parts with witnesses: with weights that are not integers quantile reads outside the bins; bins outside the range of the samples; bins that are not sorted. Not modelled: weighted_diff (never set by the API), moments above the first, overflow."
  },
  {
   "property": "C128",
   "status": "partial",
   "theorems": [
    "Pyinterp.Alias.C128_statistics",
    "Pyinterp.Alias.C128_statistics_arrays",
    "Pyinterp.Alias.C128_binning",
    "Pyinterp.Alias.C128_histogram",
    "Pyinterp.Alias.C128_streaming",
    "Pyinterp.Alias.C128_histogram2d",
    "Pyinterp.Alias.C128_histogram_false",
    "Pyinterp.Alias.C128_histogram2d_false",
    "Pyinterp.Alias.C128_streaming_false",
    "Pyinterp.Alias.C128_histogram_empty"
   ],
   "note": "Proved statement by statement for DescriptiveStatistics and Binning1D/2D, whatever the aliasing. False for StreamingHistogram and Histogram2D: a += a inserts in the vector on which it iterates and has no defined behaviour as soon as one cell holds a bin (C128_histogram_false, C128_histogram2d_false, C128_streaming_false)."
  },
  {
   "property": "C129",
   "status": "proved",
   "theorems": [
    "Pyinterp.BinArrays.C129_bins",
    "Pyinterp.BinArrays.C129_histograms",
    "Pyinterp.BinArrays.C129_recover"
   ],
   "note": "The hypothesis shape.prod = number of histograms is the invariant of allocate_accumulators. C129_recover (the bins and the sum of the weights are read back) is stated for bins(); the array of histograms() is the same list of rows."
  },
  {
   "property": "C13",
   "status": "proved",
   "theorems": [
    "Pyinterp.Dateutils.C13_weekday",
    "Pyinterp.Dateutils.C13_isocalendar"
   ],
   "note": ""
  },
  {
   "property": "C130",
   "status": "partial",
   "theorems": [
    "Pyinterp.GeoTree.C130_window_accepts",
    "Pyinterp.GeoTree.C130_window_partial",
    "Pyinterp.GeoTree.C130_lanczos_false",
    "Pyinterp.GeoTree.C130_rbf",
    "Pyinterp.GeoTree.C130_idw",
    "Pyinterp.GeoTree.C130_copy_partial",
    "Pyinterp.GeoTree.C130_copy_false"
   ],
   "note": "Accepted names and arguments, documented defaults of the three methods. False: `lanczos` without `arg` gives NaN everywhere (the documented default 1 is checked but not passed to the core); `copy.copy` returns an object of the core class, that refuses the names and whose default window is Hamming, not Blackman. Missing in the values: flat_top and a null standard deviation (as in C53)."
  },
  {
   "property": "C131",
   "status": "partial",
   "theorems": [
    "Pyinterp.Dispatch.C131_call",
    "Pyinterp.Dispatch.C131_unique",
    "Pyinterp.Dispatch.C131_bicubic",
    "Pyinterp.Dispatch.C131_integers_false"
   ],
   "note": "The names computed in Python and in C++ agree for every class and function (the domain is finite: all of it is computed in the kernel). False: a grid of 3 or 4 dimensions of 8-bit integers can be made, and every function refuses it."
  },
  {
   "property": "C14",
   "status": "proved",
   "theorems": [
    "Pyinterp.Dateutils.C14_since_january"
   ],
   "note": ""
  },
  {
   "property": "C15",
   "status": "proved",
   "theorems": [
    "Pyinterp.Dateutils.C15_cast",
    "Pyinterp.Dateutils.C15_unit_names",
    "Pyinterp.Dateutils.C15_units_order"
   ],
   "note": ""
  },
  {
   "property": "C16",
   "status": "proved",
   "theorems": [
    "Pyinterp.C16_contains_point",
    "Pyinterp.C16_contains_period",
    "Pyinterp.C16_intersects",
    "Pyinterp.C16_before_after",
    "Pyinterp.C16_trichotomy",
    "Pyinterp.C16_adjacent",
    "Pyinterp.C16_length",
    "Pyinterp.C16_len"
   ],
   "note": "int64 modelled by Int (no overflow)"
  },
  {
   "property": "C17",
   "status": "proved",
   "theorems": [
    "Pyinterp.C17_intersection",
    "Pyinterp.C17_merge",
    "Pyinterp.C17_commutative",
    "Pyinterp.C17_adjacent_not_merged"
   ],
   "note": "merge of adjacent periods is null (stated as such)"
  },
  {
   "property": "C18",
   "status": "proved",
   "theorems": [
    "Pyinterp.C18_sorted_disjoint_test",
    "Pyinterp.C18_sort",
    "Pyinterp.C18_merge",
    "Pyinterp.C18_merge_disjoint",
    "Pyinterp.C18_witness_unsorted"
   ],
   "note": ""
  },
  {
   "property": "C19",
   "status": "proved",
   "theorems": [
    "Pyinterp.C19_belong",
    "Pyinterp.C19_belong_strict",
    "Pyinterp.C19_witness_ub"
   ],
   "note": "the functional claim holds whatever is stored behind the last period; the read itself is undefined behaviour in C++ (witness)"
  },
  {
   "property": "C20",
   "status": "proved",
   "theorems": [
    "Pyinterp.C20_cross",
    "Pyinterp.C20_witness_ub"
   ],
   "note": "non-empty dates; an empty array of dates is undefined behaviour (witness)"
  },
  {
   "property": "C21",
   "status": "proved",
   "theorems": [
    "Pyinterp.C21_join",
    "Pyinterp.C21_witness_adjacent_not_joined",
    "Pyinterp.C21_witness_nested"
   ],
   "note": ""
  },
  {
   "property": "C22",
   "status": "proved",
   "theorems": [
    "Pyinterp.C22_within",
    "Pyinterp.C22_intersection",
    "Pyinterp.C22_filter",
    "Pyinterp.C22_is_close",
    "Pyinterp.C22_pickle",
    "Pyinterp.C22_witness_duration"
   ],
   "note": ""
  },
  {
   "property": "C23",
   "status": "proved",
   "theorems": [
    "Pyinterp.C23_interleave_bits",
    "Pyinterp.C23_bijection",
    "Pyinterp.C23_deinterleave_agree",
    "Pyinterp.C23_encode_agree",
    "Pyinterp.C23_encode_disagree_outside"
   ],
   "note": "All words; the two encoders agree on every point of [-180,180]x[-90,90]; they differ outside, witness given."
  },
  {
   "property": "C24",
   "status": "partial",
   "theorems": [
    "Pyinterp.C24_cell_contains_point",
    "Pyinterp.C24_any_longitude",
    "Pyinterp.C24_false_at_64_bits"
   ],
   "note": "Proved for 1..62 bits, in exact arithmetic; C24_false_at_64_bits proves the property false at 63 and 64 bits (decoding raises on the last column), which is a defect of the code."
  },
  {
   "property": "C25",
   "status": "proved",
   "theorems": [
    "Pyinterp.C25_prefix",
    "Pyinterp.C25_nested",
    "Pyinterp.C25_partition",
    "Pyinterp.C25_disjoint"
   ],
   "note": "Prefix for 1..64 bits; boxes for 1..62 bits (at 63, 64 bits a box may raise, see C24)."
  },
  {
   "property": "C26",
   "status": "proved",
   "theorems": [
    "Pyinterp.C26_hash_text_hash",
    "Pyinterp.C26_alphabet",
    "Pyinterp.C26_digits",
    "Pyinterp.C26_text_hash_text",
    "Pyinterp.C26_validate",
    "Pyinterp.C26_decode_total",
    "Pyinterp.C26_prefix"
   ],
   "note": ""
  },
  {
   "property": "C27",
   "status": "partial",
   "theorems": [
    "Pyinterp.C27_neighbors_bmi2",
    "Pyinterp.C27_neighbors_interior",
    "Pyinterp.C27_border"
   ],
   "note": "BMI2: every cell, except the neighbours beyond a pole; both implementations: every cell that does not touch the border; C27_border gives the border witnesses (undefined behaviour, itself as neighbour, opposite pole)."
  },
  {
   "property": "C28",
   "status": "proved",
   "theorems": [
    "Pyinterp.C28_zoom_in",
    "Pyinterp.C28_zoom_out",
    "Pyinterp.C28_zoom_in_out",
    "Pyinterp.C28_short_code_overflow"
   ],
   "note": "C28_short_code_overflow: codes shorter than the item size make zoom_in write past its buffer."
  },
  {
   "property": "C29",
   "status": "proved",
   "theorems": [
    "Pyinterp.Thread.C29_slices",
    "Pyinterp.Thread.C29_unknown_cpu",
    "Pyinterp.Thread.C29_result",
    "Pyinterp.Thread.C29_deterministic",
    "Pyinterp.Thread.C29_exception",
    "Pyinterp.Thread.C29_exception_assignments",
    "Pyinterp.Thread.C29_progress"
   ],
   "note": "Every interleaving of the element computations; failure to create a thread is not modelled; hardware_concurrency()==0 divides by zero; two failing slices race on the shared exception variable."
  },
  {
   "property": "C30",
   "status": "proved",
   "theorems": [
    "Pyinterp.Streaming.C30_bookkeeping",
    "Pyinterp.Streaming.C30_mean",
    "Pyinterp.Streaming.C30_total",
    "Pyinterp.Streaming.C30_closest",
    "Pyinterp.Streaming.C30_zero_bins",
    "Pyinterp.Streaming.C30_huge_values"
   ],
   "note": "Every history of push/merge/resize/clear with positive weights, bin count at least 1 and |values| below half of the largest number; C30_zero_bins and C30_huge_values are the (undefined) boundary cases. Exact arithmetic."
  },
  {
   "property": "C31",
   "status": "proved",
   "theorems": [
    "Pyinterp.Streaming.C31_merge"
   ],
   "note": ""
  },
  {
   "property": "C32",
   "status": "partial",
   "theorems": [
    "Pyinterp.Streaming.C32_min",
    "Pyinterp.Streaming.C32_max_partial",
    "Pyinterp.Streaming.C32_max_false",
    "Pyinterp.Streaming.C32_weights_false"
   ],
   "note": "min() proved for unit weights; max() is wrong for non-positive samples (proved false), and both are extremes of weight*value (witness)."
  },
  {
   "property": "C33",
   "status": "partial",
   "theorems": [
    "Pyinterp.Streaming.C33_quantile",
    "Pyinterp.Streaming.C33_errors",
    "Pyinterp.Streaming.C33_weighted_partial",
    "Pyinterp.Streaming.C33_weights_false"
   ],
   "note": "Proved for unit weights; with weights proved when the weighted extremes frame the bins, false otherwise (witness)."
  },
  {
   "property": "C34",
   "status": "proved",
   "theorems": [
    "Pyinterp.Stats.C34_exact",
    "Pyinterp.Stats.C34_unweighted",
    "Pyinterp.Stats.C34_empty",
    "Pyinterp.Stats.C34_variance_kurtosis",
    "Pyinterp.Stats.C34_skewness",
    "Pyinterp.Stats.C34_weighted_extremes_false"
   ],
   "note": "Exact arithmetic. With weights min/max are extremes of weight*value, as the code computes them; C34_weighted_extremes_false is the witness that they are not extremes of the values."
  },
  {
   "property": "C35",
   "status": "partial",
   "theorems": [
    "Pyinterp.Stats.C35_merge",
    "Pyinterp.Stats.C35_chunks",
    "Pyinterp.Stats.C35_merge_empty_partial",
    "Pyinterp.Stats.C35_merge_empty_false"
   ],
   "note": "Merging non-empty chunks is exact. With an empty side the property is false for min/max (witness) and two empty sides give NaN."
  },
  {
   "property": "C36",
   "status": "partial",
   "theorems": [
    "Pyinterp.Reduce.C36_reduce_partial",
    "Pyinterp.Reduce.C36_total_partial",
    "Pyinterp.Reduce.C36_bad_axis",
    "Pyinterp.Reduce.C36_statistics_partial",
    "Pyinterp.Reduce.C36_relaxed_strides_false"
   ],
   "note": "Proved for every shape, set of axes and data when the strides are those of a freshly allocated C array. False for C-contiguous arrays whose length-1 dimensions have other strides (x[None], x.T): witnesses in C36_relaxed_strides_false."
  },
  {
   "property": "C37",
   "status": "partial",
   "theorems": [
    "Pyinterp.Bin2D.C37_weights",
    "Pyinterp.Bin2D.C37_conservation",
    "Pyinterp.Bin2D.C37_longitudes",
    "Pyinterp.Bin2D.C37_shares",
    "Pyinterp.Bin2D.C37_tiny_cell_false",
    "Pyinterp.Bin2D.C37_wrap_false",
    "Pyinterp.Bin2D.C37_decreasing_longitudes_false"
   ],
   "note": "Weights and conservation of weight, sum and mean position with Cartesian areas, on axes that are not angles and on longitudes in any turn; shares between 0 and 1 for the areas of any spheroid (Boost's geographic areas are a parameter). Refuted across the 0/360 meridian, on the last longitude of a decreasing axis, and for cells with an area below 1e-12."
  },
  {
   "property": "C38",
   "status": "partial",
   "theorems": [
    "Pyinterp.Bin2D.C38_simple",
    "Pyinterp.Bin2D.C38_total",
    "Pyinterp.Bin2D.C38_merge",
    "Pyinterp.Bin2D.C38_binning1d",
    "Pyinterp.Bin2D.C38_pickle",
    "Pyinterp.Bin2D.C38_outside_false",
    "Pyinterp.Bin2D.C38_pickle_spheroid_false"
   ],
   "note": "Proved except \"ignores outside samples\", refuted (they go to border bins), and pickling with a spheroid (undefined behaviour in the code)."
  },
  {
   "property": "C39",
   "status": "proved",
   "theorems": [
    "Pyinterp.Bin2D.C39_new",
    "Pyinterp.Bin2D.C39_push",
    "Pyinterp.Bin2D.C39_merge",
    "Pyinterp.Bin2D.C39_merge_refused",
    "Pyinterp.Marshal.C39_pickle"
   ],
   "note": "C39_pickle: axes surviving pickling (C08), cells below 2 GiB."
  },
  {
   "property": "C40",
   "status": "proved",
   "theorems": [
    "Pyinterp.Interp.C40_found",
    "Pyinterp.Interp.C40_not_found"
   ],
   "note": "strictly increasing abscissas, at least two of them"
  },
  {
   "property": "C41",
   "status": "proved",
   "theorems": [
    "Pyinterp.Interp.C41_nodes",
    "Pyinterp.Interp.C41_between",
    "Pyinterp.Interp.C41_affine",
    "Pyinterp.Interp.C41_outside"
   ],
   "note": "exact arithmetic in any ordered field"
  },
  {
   "property": "C42",
   "status": "proved",
   "theorems": [
    "Pyinterp.Interp.C42_pieces",
    "Pyinterp.Interp.C42_nodes",
    "Pyinterp.Interp.C42_monotone"
   ],
   "note": "for every history of calls on the object"
  },
  {
   "property": "C43",
   "status": "proved",
   "theorems": [
    "Pyinterp.Interp.C43_natural",
    "Pyinterp.Interp.C43_nodes",
    "Pyinterp.Interp.C43_value"
   ],
   "note": "for every history of calls on the object; the pivots of the Thomas algorithm never vanish; the natural spline is proved unique (C74_spline_unique), so C43_value characterises the result"
  },
  {
   "property": "C44",
   "status": "partial",
   "theorems": [
    "Pyinterp.Interp.C44_first_partial",
    "Pyinterp.Interp.C44_affine_partial",
    "Pyinterp.Interp.C44_false"
   ],
   "note": "False of the code: the nodes are all reproduced if and only if the data are on a straight line (interpolate_ reads m_[i0] instead of m_[i0 + 2]). Proved: first node, straight lines."
  },
  {
   "property": "C45",
   "status": "partial",
   "theorems": [
    "Pyinterp.Interp.C45_first_two_partial",
    "Pyinterp.Interp.C45_affine_partial",
    "Pyinterp.Interp.C45_false"
   ],
   "note": "False of the code: the divided differences are divided by the widths of adjacent points; with three points the last node is reproduced iff the points are on a line. Proved: the two first nodes, and straight lines when Eigen uses one packet. Polynomial::derivative (uninitialised vector) is not modelled."
  },
  {
   "property": "C46",
   "status": "proved",
   "theorems": [
    "Pyinterp.Variate.C46_bilinear",
    "Pyinterp.Variate.C46_bilinear_exact",
    "Pyinterp.Variate.C46_bilinear_corners",
    "Pyinterp.Variate.C46_bilinear_range",
    "Pyinterp.Variate.C46_bilinear_nan",
    "Pyinterp.Variate.C46_nearest",
    "Pyinterp.Variate.C46_idw_corner",
    "Pyinterp.Variate.C46_idw"
   ],
   "note": "Cell interpolators over any ordered field; boost::geometry distances are arbitrary functions. detail/interpolation/bilinear.hpp is a separate class, see C74."
  },
  {
   "property": "C47",
   "status": "partial",
   "theorems": [
    "Pyinterp.Variate.C47_bilinear_partial",
    "Pyinterp.Variate.C47_node_partial",
    "Pyinterp.Variate.C47_exact_partial",
    "Pyinterp.Variate.C47_range_partial",
    "Pyinterp.Variate.C47_outside",
    "Pyinterp.Variate.C47_other_methods",
    "Pyinterp.Variate.C47_seam_false",
    "Pyinterp.Variate.C47_descending_angle_false",
    "Pyinterp.Variate.C47_y_angle_false",
    "Pyinterp.Variate.C47_accept"
   ],
   "note": "False at the seam of a circular axis for bilinear (witness), at the smallest node of a decreasing angular axis (witness) and for angular y axes (witness); proved everywhere else."
  },
  {
   "property": "C48",
   "status": "partial",
   "theorems": [
    "Pyinterp.Variate.C48_linear",
    "Pyinterp.Variate.C48_nearest",
    "Pyinterp.Variate.C48_nearest_temporal_partial",
    "Pyinterp.Variate.C48_outside",
    "Pyinterp.Variate.C48_range_partial",
    "Pyinterp.Variate.C48_node_partial",
    "Pyinterp.Variate.C48_quad",
    "Pyinterp.Variate.C48_quad_range_partial",
    "Pyinterp.Variate.C48_quad_node_partial",
    "Pyinterp.Variate.C48_quad_outside",
    "Pyinterp.Variate.C48_method_names",
    "Pyinterp.Variate.C48_nearest_temporal_false",
    "Pyinterp.Variate.C48_accept",
    "Pyinterp.Variate.C48_quad_accept"
   ],
   "note": "Same restrictions as C47 on the x and y axes; nearest on a temporal axis squares differences in int64 and overflows (witness)."
  },
  {
   "property": "C49",
   "status": "partial",
   "theorems": [
    "Pyinterp.Interp.C49_values",
    "Pyinterp.Interp.C49_refused",
    "Pyinterp.Interp.C49_linear",
    "Pyinterp.Interp.C49_splines",
    "Pyinterp.Interp.C49_bounds_error_false",
    "Pyinterp.Interp.C49_angle_false",
    "Pyinterp.Interp.C49_descending_false"
   ],
   "note": "Windows, one value per coordinate, NaN outside, values: proved. The part about bounds_error is false in the code (C49_bounds_error_false: the flag has no effect); longitudes outside of the axis turn and decreasing axes give NaN (witnesses). c_spline_periodic depends on the other coordinates (C65_history)."
  },
  {
   "property": "C50",
   "status": "partial",
   "theorems": [
    "Pyinterp.GaussSeidel.C50_schedule",
    "Pyinterp.GaussSeidel.C50_race_free",
    "Pyinterp.GaussSeidel.C50_result",
    "Pyinterp.GaussSeidel.C50_unchanged",
    "Pyinterp.GaussSeidel.C50_range",
    "Pyinterp.GaussSeidel.C50_laplace",
    "Pyinterp.GaussSeidel.C50_converges",
    "Pyinterp.GaussSeidel.C50_residual",
    "Pyinterp.GaussSeidel.C50_converges_laplace",
    "Pyinterp.GaussSeidel.C50_relaxation_two_false",
    "Pyinterp.GaussSeidel.C50_one_row_false",
    "Pyinterp.GaussSeidel.C50_range_zero_false"
   ],
   "note": "Every interleaving of the workers of every pass gives the same grid, no data race, defined cells unchanged, filled values defined and in the range of the data (zonal-average guess), convergence for 0 < relaxation < 2 (energy argument), meaning of the residual. False parts proved: one-row non circular grid reads out of bounds; with the zero guess the values leave the data range; with relaxation 2 there may be no convergence. Exact arithmetic; the number of iterations needed is not made explicit in the statement."
  },
  {
   "property": "C51",
   "status": "partial",
   "theorems": [
    "Pyinterp.Loess.C51_window_size",
    "Pyinterp.Loess.C51_result",
    "Pyinterp.Loess.C51_range",
    "Pyinterp.Loess.C51_undefined",
    "Pyinterp.Loess.C51_schedule",
    "Pyinterp.Loess.C51_result3D",
    "Pyinterp.Loess.C51_result4D",
    "Pyinterp.Loess.C51_single_x_false",
    "Pyinterp.Loess.C51_step_false",
    "Pyinterp.Loess.C51_descending_angle_false"
   ],
   "note": "All parts proved for 2-D, 3-D, 4-D grids, every schedule. Restrictions: axes with at least two values unless x is an angle (otherwise remainder modulo 0, C51_single_x_false). False with respect to the documentation: window counted in axis units and not in points (C51_step_false), decreasing angular axis (C51_descending_angle_false)."
  },
  {
   "property": "C52",
   "status": "partial",
   "theorems": [
    "Pyinterp.FillLine.C52_vector",
    "Pyinterp.FillLine.C52_vector_defined",
    "Pyinterp.FillLine.C52_vector_int",
    "Pyinterp.FillLine.C52_matrix",
    "Pyinterp.FillLine.C52_max_int_false",
    "Pyinterp.FillLine.C52_matrix_false"
   ],
   "note": "Exact arithmetic, no integer overflow. The full statement is false in two cases, proved: a matrix row holding one single defined value may lose it (C52_matrix_false); INT64_MAX as fill value fills nothing (C52_max_int_false)."
  },
  {
   "property": "C53",
   "status": "partial",
   "theorems": [
    "Pyinterp.WindowFunctions.C53_support_partial",
    "Pyinterp.WindowFunctions.C53_shape_partial",
    "Pyinterp.WindowFunctions.C53_positive",
    "Pyinterp.WindowFunctions.C53_names",
    "Pyinterp.WindowFunctions.C53_parzen_false",
    "Pyinterp.WindowFunctions.C53_flat_top_false",
    "Pyinterp.WindowFunctions.C53_lanczos_default_false",
    "Pyinterp.WindowFunctions.C53_table"
   ],
   "note": "Weights at and beyond the radius, between 0 and 1, symmetric shape, for the windows that satisfy it. parzen and parzen_swot are negative beyond the radius, flat_top is negative, nuttall(0) is 0.9893589, lanczos without argument always gives 0 or NaN: proved as _false theorems."
  },
  {
   "property": "C54",
   "status": "partial",
   "theorems": [
    "Pyinterp.RTree.C54_hit",
    "Pyinterp.RTree.C54_within_hit",
    "Pyinterp.RTree.C54_mean",
    "Pyinterp.RTree.C54_none",
    "Pyinterp.RTree.C54_count",
    "Pyinterp.RTree.C54_within_false",
    "Pyinterp.RTree.C54_ball"
   ],
   "note": "For every answer of the spatial index satisfying KNearest. The documented meaning of within fails with a radius (C54_within_false): the test is made before the points beyond the radius are dropped."
  },
  {
   "property": "C55",
   "status": "partial",
   "theorems": [
    "Pyinterp.RTree.C55_mean_partial",
    "Pyinterp.RTree.C55_defined",
    "Pyinterp.RTree.C55_none",
    "Pyinterp.RTree.C55_flat_top_false",
    "Pyinterp.RTree.C55_no_radius_false",
    "Pyinterp.RTree.C55_lanczos_default_false"
   ],
   "note": "Weighted mean of the neighbours within the radius for non-negative windows; flat_top, the absence of a radius with coincident points and lanczos without argument are counterexamples."
  },
  {
   "property": "C56",
   "status": "partial",
   "theorems": [
    "Pyinterp.Shapes.C56_eigen",
    "Pyinterp.Shapes.C56_size",
    "Pyinterp.Shapes.C56_ndim",
    "Pyinterp.Shapes.C56_ndarray",
    "Pyinterp.Shapes.C56_vectors",
    "Pyinterp.Shapes.C56_packing",
    "Pyinterp.Shapes.C56_push1D_partial",
    "Pyinterp.Shapes.C56_push1D_longer_false",
    "Pyinterp.Shapes.C56_push1D_shorter_false"
   ],
   "note": "The checks accept equal shapes only, for any number of arrays. Binning1D.push makes no check: extra values are ignored, missing values are read outside of the array (negations proved)."
  },
  {
   "property": "C57",
   "status": "partial",
   "theorems": [
    "Pyinterp.Marshal.C57_hist",
    "Pyinterp.Marshal.C57_hist_truncated",
    "Pyinterp.Marshal.C57_hist_safe",
    "Pyinterp.Marshal.C57_roundtrip_partial",
    "Pyinterp.Marshal.C57_truncated_partial",
    "Pyinterp.Marshal.C57_safe_partial",
    "Pyinterp.Marshal.C57_pickle",
    "Pyinterp.Marshal.C57_matrix",
    "Pyinterp.Marshal.C57_matrix_truncated",
    "Pyinterp.Marshal.C57_matrix_shape",
    "Pyinterp.Marshal.C57_negative_false",
    "Pyinterp.Marshal.C57_large_false",
    "Pyinterp.Marshal.C57_shape_false"
   ],
   "note": "Proved when the announced sizes are below 2^63 and the items below 2 GiB; false otherwise (out of range views, pointer moved backwards); the shape of a pickled StreamingHistogram is not checked."
  },
  {
   "property": "C58",
   "status": "proved",
   "theorems": [
    "Pyinterp.C58_values",
    "Pyinterp.C58_values_exact",
    "Pyinterp.C58_values_int",
    "Pyinterp.C58_unwrap_increasing",
    "Pyinterp.C58_unwrap_decreasing",
    "Pyinterp.C58_witness_two_values"
   ],
   "note": "tolerance 0 <= eps < 1 for floating point axes"
  },
  {
   "property": "C59",
   "status": "partial",
   "theorems": [
    "Pyinterp.C59_circular_nearest",
    "Pyinterp.C59_descending_wrong",
    "Pyinterp.C59_bounded_not_circular"
   ],
   "note": "proved for increasing axes spanning at most 360 degrees; false for decreasing axes (witness): the code takes the last index for the largest coordinate"
  },
  {
   "property": "C60",
   "status": "proved",
   "theorems": [
    "Pyinterp.C60_decode_encode",
    "Pyinterp.C60_from_string",
    "Pyinterp.C60_reduce",
    "Pyinterp.C60_geohash_neighbors"
   ],
   "note": ""
  },
  {
   "property": "C61",
   "status": "partial",
   "theorems": [
    "Pyinterp.C61_bounding_boxes_partial",
    "Pyinterp.C61_whole_earth",
    "Pyinterp.C61_false_not_covered"
   ],
   "note": "The exact content of the result is proved; the covering property is false (witness)."
  },
  {
   "property": "C62",
   "status": "proved",
   "theorems": [
    "Pyinterp.Streaming.C62_variance_le",
    "Pyinterp.Streaming.C62_exact_when_small"
   ],
   "note": ""
  },
  {
   "property": "C63",
   "status": "partial",
   "theorems": [
    "Pyinterp.Bin2D.C63_add",
    "Pyinterp.Bin2D.C63_add_mutates",
    "Pyinterp.Alias.C128_binning",
    "Pyinterp.Alias.C128_statistics_arrays",
    "Pyinterp.Alias.C128_histogram2d_false"
   ],
   "note": "a + b returns the merge but modifies a: the expected absence of side effect is refuted. a + a is the merge of a with itself for the statistics and the binnings (C128_binning, C128_statistics_arrays) and has no defined behaviour for Histogram2D (C128_histogram2d_false)."
  },
  {
   "property": "C64",
   "status": "proved",
   "theorems": [
    "Pyinterp.Interp.C64_no_history"
   ],
   "note": "the packets of Eigen are a parameter of the polynomial; the periodic cubic spline is C65"
  },
  {
   "property": "C65",
   "status": "proved",
   "theorems": [
    "Pyinterp.Interp.C65_periodic",
    "Pyinterp.Interp.C65_history",
    "Pyinterp.Interp.C65_value"
   ],
   "note": "the last pivot of the cyclic LDL^T factorisation is shown positive for every mesh; the periodic spline is proved unique (C74_periodic_unique); C65_history is the witness of the history dependence"
  },
  {
   "property": "C66",
   "status": "proved",
   "theorems": [
    "Pyinterp.RTree.C66_query",
    "Pyinterp.RTree.C66_value"
   ],
   "note": "For every answer of the spatial index satisfying KNearest (contract of Boost)."
  },
  {
   "property": "C67",
   "status": "partial",
   "theorems": [
    "Pyinterp.RTree.C67_packing",
    "Pyinterp.RTree.C67_insert",
    "Pyinterp.RTree.C67_clear",
    "Pyinterp.RTree.C67_refused",
    "Pyinterp.RTree.C67_hit",
    "Pyinterp.RTree.C67_kriging_false"
   ],
   "note": "Proved for all methods but the kriging, which ignores the altitude of the query (C67_kriging_false)."
  },
  {
   "property": "C68",
   "status": "partial",
   "theorems": [
    "Pyinterp.RTree.C68_contains",
    "Pyinterp.RTree.C68_highest_partial",
    "Pyinterp.RTree.C68_smallest_false"
   ],
   "note": "The box contains the observations and its lower corner is tight; the upper corner is tight only if a coordinate is positive (C68_smallest_false)."
  },
  {
   "property": "C69",
   "status": "partial",
   "theorems": [
    "Pyinterp.RTree.C69_pickle",
    "Pyinterp.RTree.C69_ecef_false"
   ],
   "note": "Round trip for geodetic meshes; a mesh built with ecef=True cannot be restored."
  },
  {
   "property": "C70",
   "status": "proved",
   "theorems": [
    "Pyinterp.Trig.C70_sincosd",
    "Pyinterp.Trig.C70_sind",
    "Pyinterp.Trig.C70_cosd",
    "Pyinterp.Trig.C70_tand",
    "Pyinterp.Trig.C70_atan2d",
    "Pyinterp.Trig.C70_atan2d_sincosd",
    "Pyinterp.Trig.C70_atan2d_origin",
    "Pyinterp.Trig.C70_atand"
   ],
   "note": "Real arithmetic."
  },
  {
   "property": "C71",
   "status": "proved",
   "theorems": [
    "Pyinterp.Geodetic.C71_surface",
    "Pyinterp.Geodetic.C71_altitude",
    "Pyinterp.Geodetic.C71_vertical_distance",
    "Pyinterp.Geodetic.C71_period",
    "Pyinterp.Geodetic.C71_injective"
   ],
   "note": "Real arithmetic."
  },
  {
   "property": "C72",
   "status": "proved",
   "theorems": [
    "Pyinterp.Geodetic.C72_longitude",
    "Pyinterp.Geodetic.C72_south",
    "Pyinterp.Geodetic.C72_meridian",
    "Pyinterp.Geodetic.C72_sphere",
    "Pyinterp.Geodetic.C72_equator",
    "Pyinterp.Geodetic.C72_pole",
    "Pyinterp.Geodetic.C72_accuracy",
    "Pyinterp.Geodetic.C72_transform",
    "Pyinterp.Geodetic.C72_wgs84"
   ],
   "note": "Real arithmetic. First approximation: remainder of the series at most 3 e2^3; correction: mean value inequality on the meridian."
  },
  {
   "property": "C73",
   "status": "partial",
   "theorems": [
    "Pyinterp.Geodetic.C73_geocentric_radius",
    "Pyinterp.Geodetic.C73_relations",
    "Pyinterp.Geodetic.C73_mean_radii",
    "Pyinterp.Geodetic.C73_authalic",
    "Pyinterp.Geodetic.C73_equality",
    "Pyinterp.Geodetic.C73_pickle",
    "Pyinterp.Geodetic.C73_authalic_false"
   ],
   "note": "The authalic radius gives the area of the spheroid (integral of a surface of revolution) for every flattened spheroid. False for a sphere: NaN (C73_authalic_false)."
  },
  {
   "property": "C74",
   "status": "proved",
   "theorems": [
    "Pyinterp.Interp.C74_splines",
    "Pyinterp.Interp.C74_value",
    "Pyinterp.Interp.C74_spline_unique",
    "Pyinterp.Interp.C74_periodic_unique",
    "Pyinterp.Interp.C74_tensor",
    "Pyinterp.Interp.C74_bilinear",
    "Pyinterp.Interp.C74_nodes",
    "Pyinterp.Interp.C74_no_history",
    "Pyinterp.Interp.C74_refused",
    "Pyinterp.Interp.C74_names"
   ],
   "note": "akima and polynomial do not reproduce the nodes (C44_false, C45_false), so C74_nodes does not list them. The NaN that a 1-D interpolation of a column outside of the window would give is a separate outcome of the model."
  },
  {
   "property": "C75",
   "status": "proved",
   "theorems": [
    "Pyinterp.RTree.C75_documented",
    "Pyinterp.RTree.C75_interpolates",
    "Pyinterp.RTree.C75_single",
    "Pyinterp.RTree.C75_mesh_hit",
    "Pyinterp.RTree.C75_mesh",
    "Pyinterp.RTree.C75_nodes",
    "Pyinterp.RTree.C75_smooth",
    "Pyinterp.RTree.C75_linear",
    "Pyinterp.RTree.C75_order",
    "Pyinterp.RTree.C75_single_false",
    "Pyinterp.RTree.C75_single_default_false",
    "Pyinterp.RTree.C75_thin_plate_false"
   ],
   "note": "Cubic and thin_plate: C75_nodes under invertibility of the system. Micchelli's theorem is proved for the other four (Lemmas/Kernel*.lean). Negations: single neighbour, thin_plate at distance one."
  },
  {
   "property": "C76",
   "status": "proved",
   "theorems": [
    "Pyinterp.RTree.C76_invertible",
    "Pyinterp.RTree.C76_exact",
    "Pyinterp.RTree.C76_observations",
    "Pyinterp.RTree.C76_sigma",
    "Pyinterp.RTree.C76_linear",
    "Pyinterp.RTree.C76_order",
    "Pyinterp.RTree.C76_mesh",
    "Pyinterp.RTree.C76_mesh_hit",
    "Pyinterp.RTree.C76_constant_false",
    "Pyinterp.RTree.C76_constant_witness_false"
   ],
   "note": "Spherical covariance: exactness under invertibility of the system only (C76_exact). Negation: constant fields are not reproduced."
  },
  {
   "property": "C77",
   "status": "partial",
   "theorems": [
    "Pyinterp.RTree.C77_variance",
    "Pyinterp.RTree.C77_antitone",
    "Pyinterp.RTree.C77_range",
    "Pyinterp.RTree.C77_scale",
    "Pyinterp.RTree.C77_spherical",
    "Pyinterp.RTree.C77_aliases",
    "Pyinterp.RTree.C77_documented_partial",
    "Pyinterp.RTree.C77_documented_false",
    "Pyinterp.RTree.C77_linear_false"
   ],
   "note": "The linear covariance fails every clause and three documented formulas differ from the code; the negations are proved."
  },
  {
   "property": "C78",
   "status": "partial",
   "theorems": [
    "Pyinterp.Interface.C78_rbf",
    "Pyinterp.Interface.C78_rbf_default",
    "Pyinterp.Interface.C78_covariance_partial",
    "Pyinterp.Interface.C78_covariance_false",
    "Pyinterp.Interface.C78_covariance_default",
    "Pyinterp.Interface.C78_dtype_partial",
    "Pyinterp.Interface.C78_dtype_integer",
    "Pyinterp.Interface.C78_dtype_false"
   ],
   "note": "Two documented covariance names raise; 32 and 64-bit integers lose precision; both negations are proved."
  },
  {
   "property": "C79",
   "status": "proved",
   "theorems": [
    "Pyinterp.Interp.C79_window",
    "Pyinterp.Interp.C79_outside",
    "Pyinterp.Interp.C79_value",
    "Pyinterp.Interp.C79_nodes",
    "Pyinterp.Interp.C79_half_size_one",
    "Pyinterp.Interp.C79_y_angle_false",
    "Pyinterp.Interp.C79_boundary_false",
    "Pyinterp.Interp.C79_last_node"
   ],
   "note": "for windows that fit (WindowFits) on increasing axes; C79_boundary_false shows that the modes expand, wrap and sym give windows with coordinates that do not increase near an end of a plain axis, C79_y_angle_false that an angular y axis is not normalised. A circular x axis must have at least 2*nx coordinates."
  },
  {
   "property": "C80",
   "status": "proved",
   "theorems": [
    "Pyinterp.Interp.C80_points",
    "Pyinterp.Interp.C80_points_3d",
    "Pyinterp.Interp.C80_points_4d",
    "Pyinterp.Interp.C80_arguments",
    "Pyinterp.Interp.C80_vectors",
    "Pyinterp.Interp.C80_layers",
    "Pyinterp.Interp.C80_single_layer",
    "Pyinterp.Interp.C80_layers_4d"
   ],
   "note": "the number of CPUs is at least 1 (C29_unknown_cpu); the exception thrown is the one of some point, in the code of the last worker that caught one"
  },
  {
   "property": "C81",
   "status": "proved",
   "theorems": [
    "Pyinterp.C81_decode_encode",
    "Pyinterp.C81_encode_decode",
    "Pyinterp.C81_encode_refused",
    "Pyinterp.C81_nonpositive_false",
    "Pyinterp.C81_large_false"
   ],
   "note": "for any rounding to nearest on 53 bits; below 2^53 and from 1 on, the two findings are outside of this range"
  },
  {
   "property": "C82",
   "status": "proved",
   "theorems": [
    "Pyinterp.C82_duration",
    "Pyinterp.C82_items",
    "Pyinterp.C82_ends",
    "Pyinterp.C82_cycle",
    "Pyinterp.C82_refused",
    "Pyinterp.C82_epoch_false",
    "Pyinterp.C82_orbit_duration",
    "Pyinterp.C82_one_pass_false"
   ],
   "note": "dates are integers (nanoseconds) without overflow; the generator is modelled by the first k items a caller asks for; C82_epoch_false: a first date equal to the epoch; C82_one_pass_false: division by zero"
  },
  {
   "property": "C83",
   "status": "proved",
   "theorems": [
    "Pyinterp.C83_partition",
    "Pyinterp.C83_samples",
    "Pyinterp.C83_refused",
    "Pyinterp.C83_negative_false",
    "Pyinterp.C83_zero"
   ],
   "note": "pass_time sorted and beginning not after the first sample; the intersection and the distances are parameters"
  },
  {
   "property": "C84",
   "status": "partial",
   "theorems": [
    "Pyinterp.C84_half_orbit",
    "Pyinterp.C84_pass_time",
    "Pyinterp.C84_first_pass_false",
    "Pyinterp.C84_plateau_false"
   ],
   "note": "the first pass is a half-orbit only if the first turning point is one of the two first samples (C84_first_pass_false); different consecutive latitudes (C84_plateau_false)"
  },
  {
   "property": "C85",
   "status": "partial",
   "theorems": [
    "Pyinterp.C85_rotation",
    "Pyinterp.C85_none",
    "Pyinterp.C85_noop_false",
    "Pyinterp.C85_start_false",
    "Pyinterp.C85_skew_false"
   ],
   "note": "the claim holds with exactly one ascent; with two or more the function does nothing (C85_noop_false, C85_start_false)"
  },
  {
   "property": "C86",
   "status": "partial",
   "theorems": [
    "Pyinterp.C86_neighbours",
    "Pyinterp.C86_bracket",
    "Pyinterp.C86_time",
    "Pyinterp.C86_first_sample_false"
   ],
   "note": "the intersection of the segment and the distances come from functions not modelled here (Linestring, Crossover); the case of the first sample is C86_first_sample_false"
  },
  {
   "property": "C87",
   "status": "proved",
   "theorems": [
    "Pyinterp.C87_swath",
    "Pyinterp.C87_sides",
    "Pyinterp.C87_chord",
    "Pyinterp.C87_arc",
    "Pyinterp.C87_horizontal",
    "Pyinterp.C87_shapes",
    "Pyinterp.C87_short_false"
   ],
   "note": "in real numbers; the pixels are brought back by ecef_to_lla (C72 for its accuracy). The case of fewer than three points is C87_short_false; the arc has exactly the length asked for when the flight is horizontal (C87_horizontal gives a sufficient condition), C87_chord otherwise"
  },
  {
   "property": "C88",
   "status": "partial",
   "theorems": [
    "Pyinterp.C88_points",
    "Pyinterp.C88_longitude",
    "Pyinterp.C88_sphere",
    "Pyinterp.C88_latitude_false"
   ],
   "note": "the values between the samples are these of C49 and are not characterised further; C88_latitude_false refutes the claim for the latitude on a flattened spheroid: no altitude gives the point computed; the dates of the samples are the coordinates of the axis (C58)"
  },
  {
   "property": "C89",
   "status": "proved",
   "theorems": [
    "Pyinterp.C89_distances",
    "Pyinterp.C89_resolution_false",
    "Pyinterp.C89_zero_gap_false",
    "Pyinterp.C89_mask",
    "Pyinterp.C89_central",
    "Pyinterp.C89_negative_false"
   ],
   "note": "equality with the distances of the pixels holds when the two resolutions are equal; the theorems with the suffix _false refute the other cases"
  },
  {
   "property": "C90",
   "status": "proved",
   "theorems": [
    "Pyinterp.Crossover.C90_unrolled",
    "Pyinterp.Crossover.C90_same_places",
    "Pyinterp.Crossover.C90_wide_false"
   ],
   "note": "exact arithmetic; C90_wide_false shows that the bound on the spans is needed"
  },
  {
   "property": "C91",
   "status": "proved",
   "theorems": [
    "Pyinterp.Crossover.C91_nearest",
    "Pyinterp.Crossover.C91_crossover_plane"
   ],
   "note": "the intersection of the lines and the geodetic distance (Boost) are parameters; exact arithmetic"
  },
  {
   "property": "C92",
   "status": "proved",
   "theorems": [
    "Pyinterp.Crossover.C92_list_plane",
    "Pyinterp.Crossover.C92_agree",
    "Pyinterp.Crossover.C92_refused",
    "Pyinterp.Crossover.C92_plane_defined",
    "Pyinterp.Crossover.C92_nearest_geodetic",
    "Pyinterp.Crossover.C92_crossover_geodetic",
    "Pyinterp.Crossover.C92_empty_false",
    "Pyinterp.Crossover.C92_nan_false"
   ],
   "note": "the functions of Boost are parameters; the theorems with the suffix _false are the corner cases given in the statement"
  },
  {
   "property": "C93",
   "status": "partial",
   "theorems": [
    "Pyinterp.Geometry.C93_pickle",
    "Pyinterp.Geometry.C93_geojson",
    "Pyinterp.Geometry.C93_geojson_refused",
    "Pyinterp.Geometry.C93_arrays",
    "Pyinterp.Geometry.C93_items",
    "Pyinterp.Geometry.C93_crossover_pickle",
    "Pyinterp.Geometry.C93_curvilinear",
    "Pyinterp.Geometry.C93_curvilinear_monotone",
    "Pyinterp.Geometry.C93_distances",
    "Pyinterp.Geometry.C93_covered",
    "Pyinterp.Geometry.C93_closest",
    "Pyinterp.Geometry.C93_closest_sizes_false"
   ],
   "note": "all the clauses are proved for arrays of equal sizes; closest_point on arrays does not compare the sizes (witness C93_closest_sizes_false). The functions of Boost (distance, covered_by, closest_points) are parameters"
  },
  {
   "property": "C94",
   "status": "partial",
   "theorems": [
    "Pyinterp.Geometry.C94_polygon_pickle",
    "Pyinterp.Geometry.C94_polygon_geojson",
    "Pyinterp.Geometry.C94_polygon_accepted",
    "Pyinterp.Geometry.C94_multi_pickle",
    "Pyinterp.Geometry.C94_multi_items",
    "Pyinterp.Geometry.C94_multi_contains",
    "Pyinterp.Geometry.C94_box_make",
    "Pyinterp.Geometry.C94_box_order",
    "Pyinterp.Geometry.C94_box_pickle",
    "Pyinterp.Geometry.C94_whole_earth",
    "Pyinterp.Geometry.C94_box_geojson",
    "Pyinterp.Geometry.C94_polygon_pickle_false",
    "Pyinterp.Geometry.C94_multi_iadd_self_false",
    "Pyinterp.Geometry.C94_box_latitude_false",
    "Pyinterp.Geometry.C94_box_pickle_setter_false"
   ],
   "note": "the clauses are proved as stated; the corner cases (empty inner rings, m += m, latitudes of boxes, setters) are false for all inputs, with the witnesses _false"
  },
  {
   "property": "C95",
   "status": "partial",
   "theorems": [
    "Pyinterp.GridPy.C95_increasing",
    "Pyinterp.GridPy.C95_copy",
    "Pyinterp.GridPy.C95_mode",
    "Pyinterp.GridPy.C95_pickle_partial",
    "Pyinterp.GridPy.C95_alias_false",
    "Pyinterp.GridPy.C95_shared_false",
    "Pyinterp.GridPy.C95_copy_angle_false",
    "Pyinterp.GridPy.C95_names"
   ],
   "note": "C95_increasing supposes distinct axis objects with 'inplace' (witness C95_alias_false) ; pickling is proved for axes of two or more coordinates, angles that are circles and dates not flipped; 'inplace' also reverses the axes of other grids that share them (C95_shared_false); 'copy' of a decreasing regional longitude loses the angle (C95_copy_angle_false)"
  },
  {
   "property": "C96",
   "status": "proved",
   "theorems": [
    "Pyinterp.GridPy.C96_same_nodes",
    "Pyinterp.GridPy.C96_geodetic",
    "Pyinterp.GridPy.C96_refused",
    "Pyinterp.GridPy.C96_time"
   ],
   "note": "The axes of the DataArray are those built by core.Axis from its coordinates (tolerance 1e-6)"
  },
  {
   "property": "C97",
   "status": "partial",
   "theorems": [
    "Pyinterp.GridPy.C97_coords",
    "Pyinterp.GridPy.C97_node_partial",
    "Pyinterp.GridPy.C97_set_order_false",
    "Pyinterp.GridPy.C97_decreasing_time_false"
   ],
   "note": "C97_node_partial supposes two or more coordinates per axis, longitudes within one turn, no regular decreasing time axis (witness C97_decreasing_time_false) and all values defined; with two different methods along Z and U the result of a 4D grid depends on the order of a Python set (C97_set_order_false)"
  },
  {
   "property": "C98",
   "status": "partial",
   "theorems": [
    "Pyinterp.Temporal.C98_values",
    "Pyinterp.Temporal.C98_refused",
    "Pyinterp.Temporal.C98_truncated",
    "Pyinterp.Temporal.C98_strict",
    "Pyinterp.Temporal.C98_find_index_partial",
    "Pyinterp.Temporal.C98_find_indexes_partial",
    "Pyinterp.Temporal.C98_truncation_false",
    "Pyinterp.Temporal.C98_pickle",
    "Pyinterp.Temporal.C98_eq_false",
    "Pyinterp.Temporal.C98_grid_pickle_false"
   ],
   "note": "numpy's astype is a parameter (floor between fixed units); the searches are proved for units of fixed duration, the unit of the dates at least as long as that of the axis, and axes that are not regular and descending (C05); false for shorter units (C98_truncation_false), for == of axes of different units (C98_eq_false) and for the pickling of grids (C98_grid_pickle_false)"
  },
  {
   "property": "C99",
   "status": "proved",
   "theorems": [
    "Pyinterp.Dateutils.C99_text",
    "Pyinterp.Dateutils.C99_injective"
   ],
   "note": "Integers are unbounded; the 32-bit casts are covered by C11_no_int32_overflow; log10 of a power of ten is assumed exact. The year is not padded to four digits."
  }
 ]
}