{"id": "C01", "title": "Angle normalisation", "statement": "Normalising an angle x to the circle starting at m returns a value in [m, m+c) that differs from x by a whole number of turns c; applying it twice changes nothing; the integer and the real-number versions obey the same law.", "quantifier": "every x, every origin m, every positive circle c", "why_tests_cant": "infinitely many angles, including far negative ones and exact multiples of the circle", "anchors": ["src/pyinterp/core/include/pyinterp/detail/math.hpp: remainder, normalize_angle"]}
{"id": "C02", "title": "Axis construction accepts exactly monotone values", "statement": "Building an irregular axis from a list of values succeeds exactly when the values are strictly increasing or strictly decreasing (and not empty); every axis that exists therefore has pairwise distinct, ordered coordinates.", "quantifier": "every list of coordinates", "why_tests_cant": "the set of lists is infinite; a single missed equal pair breaks every later search", "anchors": ["src/pyinterp/core/include/pyinterp/detail/axis/container.hpp: Irregular, is_monotonic", "src/pyinterp/core/include/pyinterp/detail/axis.hpp: Axis"]}
{"id": "C03", "title": "Nearest index on an irregular axis", "statement": "Axis.find_index on an irregular axis (increasing or decreasing) returns, for every coordinate inside the axis, an index whose value is at minimal distance from the coordinate; outside the axis it returns -1 when bounded is false and the closest end when bounded is true.", "quantifier": "every strictly monotone axis of any size, every coordinate, both values of bounded", "why_tests_cant": "binary search errors show at particular size/position combinations only", "anchors": ["src/pyinterp/core/include/pyinterp/detail/axis/container.hpp: Irregular::find_index", "src/pyinterp/core/include/pyinterp/detail/axis.hpp: Axis::find_index"]}
{"id": "C04", "title": "Nearest index on a regular real axis", "statement": "Axis.find_index on an evenly spaced floating point axis, increasing or decreasing, returns an index at minimal distance for every coordinate within the axis (and up to half a step outside), -1 farther outside when bounded is false, and the nearest end index when bounded is true.", "quantifier": "every start, step (positive or negative), size, coordinate", "why_tests_cant": "rounding at half steps and at both ends for all axes", "anchors": ["src/pyinterp/core/include/pyinterp/detail/axis/container.hpp: Regular"]}
{"id": "C05", "title": "Nearest index on a regular integer axis", "statement": "Axis.find_index on an evenly spaced integer axis (for instance a temporal axis) returns the index at minimal distance for every coordinate inside the axis.", "quantifier": "every integer start, step, size, coordinate", "why_tests_cant": "truncating division behaves differently for each sign and parity of the step; tests use a handful of steps", "anchors": ["src/pyinterp/core/include/pyinterp/detail/axis/container.hpp: Regular<T, is_integral>"]}
{"id": "C06", "title": "Bracketing indexes", "statement": "Axis.find_indexes(c) returns either nothing or a pair (i0, i1) of valid, consecutive indexes (or, on a circular axis, the last/first pair) such that c lies between the two coordinates; on a non circular axis it returns nothing exactly when c is outside the axis.", "quantifier": "every axis, every coordinate, circular or not", "why_tests_cant": "the off-by-one cases (c equal to a node, first and last cell, wrap cell) exist for each axis", "anchors": ["src/pyinterp/core/include/pyinterp/detail/axis.hpp: Axis::find_indexes(T)"]}
{"id": "C07", "title": "Window of indexes", "statement": "Axis.find_indexes(c, size, boundary) returns either nothing or exactly 2*size indexes, all valid, centred on the cell that contains c; away from the boundaries they are consecutive, and at the boundaries they follow the requested mode (expand repeats the edge, wrap is modular, sym reflects, undef refuses).", "quantifier": "every axis length, window size, boundary mode and coordinate", "why_tests_cant": "length/size/position combinations are unbounded; reflections of windows larger than the axis are rarely tried", "anchors": ["src/pyinterp/core/include/pyinterp/detail/axis.hpp: Axis::find_indexes(T, size_t, Boundary)"]}
{"id": "C08", "title": "Flipping an axis", "statement": "Axis.flip reverses the sequence of coordinates, keeps the set of coordinates, is an involution, and index searches on the flipped axis return the mirrored answer.", "quantifier": "every axis", "why_tests_cant": "holds for every size and spacing", "anchors": ["src/pyinterp/core/include/pyinterp/detail/axis/container.hpp: flip", "src/pyinterp/core/include/pyinterp/detail/axis.hpp: Axis::flip"]}
{"id": "C09", "title": "Axis pickling", "statement": "An axis rebuilt from its pickled state equals the original: same coordinates, same direction, same circle property, hence the same answers to all queries.", "quantifier": "every axis that can be constructed", "why_tests_cant": "state space is unbounded; loss of one field shows only on axes that use it", "anchors": ["src/pyinterp/core/include/pyinterp/axis.hpp: getstate, setstate", "src/pyinterp/core/include/pyinterp/temporal_axis.hpp: getstate, setstate"]}
{"id": "C10", "title": "Bounds checking of axis access", "statement": "axis[i] and axis slices raise for every index outside [0, size) and otherwise return the coordinates in order; no read is ever performed outside the storage.", "quantifier": "every axis and every integer index / slice", "why_tests_cant": "all integers", "anchors": ["src/pyinterp/core/include/pyinterp/detail/axis.hpp: coordinate_value, slice"]}
{"id": "C11", "title": "Calendar conversion round trip", "statement": "Converting an epoch in days to (year, month, day) yields a valid proleptic Gregorian date, and converting this date back gives the same number of days; consecutive days map to consecutive calendar dates.", "quantifier": "every day number, positive or negative", "why_tests_cant": "leap-year/century/400-year rules over an unbounded calendar", "anchors": ["src/pyinterp/core/include/pyinterp/dateutils.hpp: date_from_days, days_from_civil"]}
{"id": "C12", "title": "Clock decomposition", "statement": "Splitting an epoch expressed in any numpy unit gives hour in 0..23, minute in 0..59, second in 0..59, and a fraction in [0, 10^k); recomposing date and time gives the original instant, also before 1970.", "quantifier": "every 64-bit epoch and every unit", "why_tests_cant": "negative epochs that are not multiples of the unit are rarely tested", "anchors": ["src/pyinterp/core/include/pyinterp/dateutils.hpp: FractionalSeconds, time_from_seconds, datetime_from_hours, datetime_from_minutes"]}
{"id": "C13", "title": "Weekday and ISO calendar", "statement": "weekday advances by one every day and is right for 1970-01-01; isocalendar returns week 1..53, weekday 1..7 and the ISO year such that week 1 contains the first Thursday, so that (ISO year, week, day) identifies the day.", "quantifier": "every day number", "why_tests_cant": "year boundaries of all 400-year patterns", "anchors": ["src/pyinterp/core/include/pyinterp/dateutils.hpp: weekday, iso_week_days, isocalendar"]}
{"id": "C14", "title": "Day of year", "statement": "timedelta_since_january is the time elapsed since January 1st 00:00 of the same year: non negative and smaller than the length of the year.", "quantifier": "every date", "why_tests_cant": "all months, leap and common years", "anchors": ["src/pyinterp/core/include/pyinterp/dateutils.hpp: days_since_january, timedelta_since_january"]}
{"id": "C15", "title": "Unit conversion is exact or refused", "statement": "Unit handling: the unit names and the resolutions correspond one to one; converting the fractional part of a second to a finer unit is an exact multiplication and to a coarser unit the floor.", "quantifier": "every value and every pair of units", "why_tests_cant": "all int64 values", "anchors": ["src/pyinterp/core/include/pyinterp/dateutils.hpp: FractionalSeconds::cast", "src/pyinterp/core/include/pyinterp/temporal_axis.hpp: safe_cast"]}
{"id": "C16", "title": "Period relations", "statement": "For valid periods, contains, intersects, is_before, is_after, is_adjacent agree with the point-set meaning of the closed interval [begin, last]: exactly one of before/after/intersects holds.", "quantifier": "every pair of periods and every instant", "why_tests_cant": "boundary coincidences (last == begin, adjacent) over all integers", "anchors": ["src/pyinterp/core/include/pyinterp/period.hpp: Period"]}
{"id": "C17", "title": "Period intersection and union", "statement": "intersection(p, q) contains an instant iff both p and q contain it (and is null when disjoint); merge(p, q) of intersecting periods contains an instant iff p or q does, and is null when they do not intersect (also when they are merely adjacent); both are commutative.", "quantifier": "all pairs of periods", "why_tests_cant": "same", "anchors": ["src/pyinterp/core/include/pyinterp/period.hpp: Period::intersection, Period::merge"]}
{"id": "C18", "title": "PeriodList merge keeps the union", "statement": "Merging two sorted, disjoint period lists gives a sorted list of disjoint periods that covers exactly the instants covered by one of the inputs.", "quantifier": "all pairs of period lists of any length", "why_tests_cant": "interleavings of any number of periods", "anchors": ["src/pyinterp/core/include/pyinterp/period.hpp: PeriodList::merge"]}
{"id": "C19", "title": "belong_to_a_period is membership", "statement": "For sorted dates and a sorted disjoint period list, flag i of belong_to_a_period is true iff some period contains date i, and the output has one flag per date, whatever memory lies behind the last period (the code reads one element past the end when a date is after all the periods: that read is undefined behaviour and is characterised exactly).", "quantifier": "all dates arrays and period lists", "why_tests_cant": "two-pointer sweep: errors depend on interleaving; last date / exhausted list cases", "anchors": ["src/pyinterp/core/include/pyinterp/period.hpp: PeriodList::belong_to_a_period"]}
{"id": "C20", "title": "cross_a_period", "statement": "For a non-empty list of sorted dates and a sorted disjoint period list, flag i of cross_a_period is true iff a period of the list has an instant between date i and the last date.", "quantifier": "all dates arrays and period lists", "why_tests_cant": "same", "anchors": ["src/pyinterp/core/include/pyinterp/period.hpp: PeriodList::cross_a_period"]}
{"id": "C21", "title": "join_adjacent_periods", "statement": "Joining periods closer than epsilon returns sorted disjoint periods, separated by more than epsilon, covering every input instant and adding only instants in gaps not longer than epsilon.", "quantifier": "all sorted disjoint lists, all epsilon", "why_tests_cant": "chains of joins of any length", "anchors": ["src/pyinterp/core/include/pyinterp/period.hpp: PeriodList::join_adjacent_periods"]}
{"id": "C22", "title": "PeriodList within / intersection / filter", "statement": "within keeps exactly the periods that intersect the given one, intersection clips them (covering exactly the common instants), filter keeps exactly the periods that are long enough; order is preserved.", "quantifier": "all lists and periods", "why_tests_cant": "same", "anchors": ["src/pyinterp/core/include/pyinterp/period.hpp: PeriodList::within, intersection, filter"]}
{"id": "C23", "title": "Geohash bit interleaving", "statement": "The 64-bit interleave of two 32-bit numbers is a bijection whose inverse is deinterleave; bit 2i comes from one coordinate and bit 2i+1 from the other; the BMI2 and the portable implementations agree.", "quantifier": "all 2^64 pairs", "why_tests_cant": "2^64 inputs", "anchors": ["src/pyinterp/core/lib/geohash/int64.cpp: spread, squash, interleave, deinterleave"]}
{"id": "C24", "title": "Geohash cell contains the point", "statement": "The bounding box of the hash of a point contains the point, for every precision from 1 to 64 bits, has the size announced for that precision, and the decoded centre is within half a cell of the point; a longitude outside [-180, 180) is first brought back by a whole number of turns. (False of the code at 63 and 64 bits: decoding a cell of the last column raises.)", "quantifier": "every longitude/latitude and precision", "why_tests_cant": "continuum of points, poles and date line", "anchors": ["src/pyinterp/core/lib/geohash/int64.cpp: encode, bounding_box, decode", "src/pyinterp/core/include/pyinterp/geohash/int64.hpp"]}
{"id": "C25", "title": "Geohash cells nest", "statement": "The hash at a lower precision is the prefix of the hash at a higher precision, and the cell at higher precision is included in the cell at lower precision; cells of equal precision with different codes do not overlap.", "quantifier": "every point, every pair of precisions", "why_tests_cant": "same", "anchors": ["src/pyinterp/core/lib/geohash/int64.cpp"]}
{"id": "C26", "title": "Geohash base32 text round trip", "statement": "Decoding the text of a hash gives back the hash and its precision, every produced character belongs to the alphabet, and validate accepts exactly the strings over the alphabet.", "quantifier": "every hash and every length 1..12; every string", "why_tests_cant": "32^12 codes", "anchors": ["src/pyinterp/core/include/pyinterp/geohash/base32.hpp", "src/pyinterp/core/lib/geohash/base32.cpp", "src/pyinterp/core/lib/geohash/string.cpp"]}
{"id": "C27", "title": "Geohash neighbours", "statement": "The eight neighbours returned for a cell are, in the order N, NE, E, SE, S, SW, W, NW, the cells adjacent to it at the same precision, with wrap-around in longitude; the neighbours beyond a pole are not adjacent cells. (False of the portable implementation on the borders of the map.)", "quantifier": "every cell and precision", "why_tests_cant": "all cells", "anchors": ["src/pyinterp/core/lib/geohash/int64.cpp: neighbors"]}
{"id": "C28", "title": "Geohash zoom in / zoom out", "statement": "Zooming a set of codes in to a finer precision enumerates exactly the codes that have the given code as prefix, without duplicates; zooming out then gives back the original set.", "quantifier": "every code and pair of precisions", "why_tests_cant": "all codes", "anchors": ["src/pyinterp/core/lib/geohash/string.cpp: transform, zoom_in, zoom_out", "src/pyinterp/core/lib/geohash/int64.cpp: bounding_boxes"]}
{"id": "C29", "title": "Work splitting between threads", "statement": "Whatever the number of threads, the slices given to the workers are disjoint, in range and cover every element exactly once, so the result of a per-element computation does not depend on the number of threads nor on scheduling.", "quantifier": "every size, number of threads and schedule", "why_tests_cant": "schedules and sizes are unbounded", "anchors": ["src/pyinterp/core/include/pyinterp/detail/thread.hpp: dispatch"]}
{"id": "C30", "title": "Streaming histogram bookkeeping", "statement": "After any sequence of pushes the streaming histogram has at most bin_count bins, sorted by value, whose weights sum to the total pushed weight and whose weighted mean equals the exact mean of the pushed samples.", "quantifier": "every sequence of (value, weight) and bin count", "why_tests_cant": "histories of any length", "anchors": ["src/pyinterp/core/include/pyinterp/detail/math/streaming_histogram.hpp: StreamingHistogram"]}
{"id": "C31", "title": "Streaming histogram merge", "statement": "Merging two histograms conserves total weight, weighted sum and sample count, and keeps the size and order invariants.", "quantifier": "every pair of reachable histograms", "why_tests_cant": "all histories", "anchors": ["src/pyinterp/core/include/pyinterp/detail/math/streaming_histogram.hpp: operator+="]}
{"id": "C32", "title": "Streaming histogram extremes", "statement": "min() and max() are the smallest and largest pushed values.", "quantifier": "every sequence of samples", "why_tests_cant": "sign and order of samples", "anchors": ["src/pyinterp/core/include/pyinterp/detail/math/streaming_histogram.hpp"]}
{"id": "C33", "title": "Streaming histogram quantile", "statement": "quantile(q) is defined for a non-empty histogram and every q in [0,1], lies between min and max, is monotone in q and never reads outside the bins.", "quantifier": "every reachable histogram and q", "why_tests_cant": "all histories", "anchors": ["src/pyinterp/core/include/pyinterp/detail/math/streaming_histogram.hpp: quantile"]}
{"id": "C34", "title": "Descriptive statistics are exact", "statement": "After any sequence of samples, count, sum of weights, mean, variance, skewness and kurtosis given by the one-pass update equal the defining sums over the samples, min and max the extremes.", "quantifier": "every sequence of samples", "why_tests_cant": "recurrence over histories of any length", "anchors": ["src/pyinterp/core/include/pyinterp/detail/math/descriptive_statistics.hpp: Accumulators::operator()"]}
{"id": "C35", "title": "Descriptive statistics merge", "statement": "Merging the statistics of two data sets gives the statistics of their concatenation, whatever the split, so chunked (dask) processing equals one pass.", "quantifier": "every pair of histories, including empty ones", "why_tests_cant": "all splits", "anchors": ["src/pyinterp/core/include/pyinterp/detail/math/descriptive_statistics.hpp: operator+=", "src/pyinterp/core/include/pyinterp/descriptive_statistics.hpp: operator+="]}
{"id": "C36", "title": "Reduction along axes", "statement": "Reducing an array along a set of axes pushes every element exactly in the output cell with the same kept coordinates; every output index is in range.", "quantifier": "every shape (any rank) and every set of axes", "why_tests_cant": "all shapes", "anchors": ["src/pyinterp/core/include/pyinterp/detail/numpy.hpp: reduced_properties, unravel", "src/pyinterp/core/include/pyinterp/descriptive_statistics.hpp"]}
{"id": "C37", "title": "Linear binning weights", "statement": "The four weights of linear binning are non-negative and sum to 1, so that a sample is distributed without loss and the weighted position is preserved in each direction.", "quantifier": "every cell and every point in it", "why_tests_cant": "continuum", "anchors": ["src/pyinterp/core/include/pyinterp/detail/math/binning.hpp", "src/pyinterp/core/include/pyinterp/binning.hpp: push_linear"]}
{"id": "C38", "title": "Nearest binning counts each sample once", "statement": "push with simple binning adds each sample inside the grid to exactly one bin, the nearest one, and ignores NaN and outside samples; total count is the number of accepted samples; merging two binnings equals binning the concatenation.", "quantifier": "every sequence of samples and axes", "why_tests_cant": "all histories", "anchors": ["src/pyinterp/core/include/pyinterp/binning.hpp: Binning2D::push, operator+="]}
{"id": "C39", "title": "Histogram2D counts", "statement": "Histogram2D counts: each accepted (x, y, z) lands in exactly one 2-D cell; merging adds the contents; pickling gives an equal object.", "quantifier": "every sequence of samples", "why_tests_cant": "all histories", "anchors": ["src/pyinterp/core/include/pyinterp/histogram2d.hpp: Histogram2D"]}
{"id": "C40", "title": "1-D interpolator search", "statement": "Locating x in sorted abscissas returns consecutive indexes whose interval contains x, for every x in range and nothing outside.", "quantifier": "every sorted array, every x", "why_tests_cant": "all sizes", "anchors": ["src/pyinterp/core/include/pyinterp/detail/interpolation/interpolator.hpp: search"]}
{"id": "C41", "title": "Linear interpolation", "statement": "Linear interpolation reproduces the nodes, stays between the neighbouring values, and is exact on affine data.", "quantifier": "every sorted array, values, x in range", "why_tests_cant": "continuum", "anchors": ["src/pyinterp/core/include/pyinterp/detail/interpolation/linear.hpp"]}
{"id": "C42", "title": "Steffen interpolation", "statement": "The Steffen spline reproduces the nodes and is monotone between two consecutive nodes, so it never overshoots the data.", "quantifier": "every sorted array and data", "why_tests_cant": "continuum of data", "anchors": ["src/pyinterp/core/include/pyinterp/detail/interpolation/steffen.hpp"]}
{"id": "C43", "title": "Cubic spline interpolation", "statement": "The natural cubic spline solves its tridiagonal system exactly (pivots never vanish), reproduces the nodes, and has continuous first and second derivatives.", "quantifier": "every strictly increasing abscissas of at least the minimal size", "why_tests_cant": "all sizes", "anchors": ["src/pyinterp/core/include/pyinterp/detail/interpolation/cspline.hpp", "src/pyinterp/core/include/pyinterp/detail/interpolation/cspline_base.hpp"]}
{"id": "C44", "title": "Akima interpolation", "statement": "The Akima spline reproduces the data at the nodes.", "quantifier": "every sorted array and data", "why_tests_cant": "continuum", "anchors": ["src/pyinterp/core/include/pyinterp/detail/interpolation/akima.hpp"]}
{"id": "C45", "title": "Polynomial interpolation", "statement": "Polynomial interpolation reproduces the data at the nodes and is exact for polynomial data of degree below the number of nodes.", "quantifier": "every set of distinct nodes", "why_tests_cant": "continuum", "anchors": ["src/pyinterp/core/include/pyinterp/detail/interpolation/polynomial.hpp"]}
{"id": "C46", "title": "Bilinear and bivariate cell interpolation", "statement": "Bilinear interpolation in a grid cell reproduces the four corners, stays within the range of the corner values, and is exact on functions a+bx+cy+dxy; nearest returns a corner value; inverse distance weighting is a convex combination of the corners.", "quantifier": "every cell, corner values and point in the cell", "why_tests_cant": "continuum", "anchors": ["src/pyinterp/core/include/pyinterp/detail/math/bivariate.hpp", "src/pyinterp/core/include/pyinterp/detail/interpolation/bilinear.hpp"]}
{"id": "C47", "title": "Bivariate grid interpolation", "statement": "Interpolating a 2-D grid at a grid node returns the node value, inside the grid the value is within the range of the surrounding nodes, outside it is NaN (or an error when bounds_error is set), also across the 0/360 meridian of a circular axis.", "quantifier": "every grid, axes, point", "why_tests_cant": "continuum, wrap cell", "anchors": ["src/pyinterp/core/include/pyinterp/bivariate.hpp: _bivariate", "src/pyinterp/core/include/pyinterp/detail/axis.hpp: find_indexes"]}
{"id": "C48", "title": "Tri/quadrivariate interpolation", "statement": "Interpolation along z (and u) of bilinear results reproduces nodes and stays within the range of the surrounding nodes.", "quantifier": "every cell and values", "why_tests_cant": "continuum", "anchors": ["src/pyinterp/core/include/pyinterp/detail/math/trivariate.hpp", "src/pyinterp/core/include/pyinterp/trivariate.hpp", "src/pyinterp/core/include/pyinterp/quadrivariate.hpp"]}
{"id": "C49", "title": "1-D windowed interpolation", "statement": "interpolate1d returns one value per requested coordinate; coordinates outside the axis give NaN, or raise when bounds_error is true; every window is inside the axis and contains the cell of the coordinate.", "quantifier": "every axis, half window and coordinate", "why_tests_cant": "window clipping at both ends", "anchors": ["src/pyinterp/core/include/pyinterp/interpolate1d.hpp: interpolate_1d"]}
{"id": "C50", "title": "Gauss-Seidel filling", "statement": "Filling undefined values by relaxation leaves every defined value unchanged, ends with no undefined value when started from zonal means, keeps the filled values within the range of the data (relaxation in (0,1]), and gives a result that does not depend on the number of threads. For a relaxation constant strictly between 0 and 2 and a positive tolerance it stops with a residual smaller than the tolerance as soon as enough iterations are allowed, and every filled value differs from the mean of its four neighbours by at most (1 + |1 - w|/|w|) times the residual returned.", "quantifier": "every grid, mask, number of iterations, relaxation constant, tolerance, threads, schedule", "why_tests_cant": "schedules, any number of iterations, convergence for every grid", "anchors": ["src/pyinterp/core/include/pyinterp/fill.hpp: gauss_seidel, set_zonal_average"]}
{"id": "C51", "title": "Loess filling", "statement": "The loess filter gives a weighted mean with non-negative weights of defined values in the window, changes only the cells requested by the fill type (defined, undefined, all), and returns NaN iff no defined neighbour has weight.", "quantifier": "every grid, window size, mask", "why_tests_cant": "continuum, boundaries", "anchors": ["src/pyinterp/core/include/pyinterp/fill.hpp: loess, frame_index"]}
{"id": "C52", "title": "Line filling", "statement": "fill.vector / fill.matrix replaces only undefined values, fills every gap by linear interpolation between the neighbouring defined values and leaves rows without data unchanged.", "quantifier": "every array and mask", "why_tests_cant": "every gap pattern", "anchors": ["src/pyinterp/core/include/pyinterp/fill.hpp: fill_line, vector, matrix"]}
{"id": "C53", "title": "Window functions have compact support", "statement": "Every window function used to weight neighbours is 0 beyond its radius, and within the radius non-negative with maximum at distance 0.", "quantifier": "every distance, radius, argument", "why_tests_cant": "continuum", "anchors": ["src/pyinterp/core/include/pyinterp/detail/math/window_functions.hpp"]}
{"id": "C54", "title": "Inverse distance weighting on the mesh", "statement": "IDW with an R-tree returns the stored value when the query hits a point, otherwise a value within the range of the values of the neighbours within the radius, and NaN with 0 neighbours when there is none; the number of neighbours reported is at most k.", "quantifier": "every point set, query, radius, k, p", "why_tests_cant": "continuum", "anchors": ["src/pyinterp/core/include/pyinterp/detail/geometry/rtree.hpp: inverse_distance_weighting"]}
{"id": "C55", "title": "Window function interpolation on the mesh", "statement": "Window-function interpolation is a convex combination of the values of neighbours within the radius and NaN if there is none.", "quantifier": "every point set, query", "why_tests_cant": "continuum", "anchors": ["src/pyinterp/core/include/pyinterp/detail/geometry/rtree.hpp: window_function"]}
{"id": "C56", "title": "Shape checks", "statement": "Functions taking several arrays reject any call in which one array has a shape different from the first; when they accept, all shapes are equal.", "quantifier": "any number of arrays and shapes", "why_tests_cant": "any arity", "anchors": ["src/pyinterp/core/include/pyinterp/detail/broadcast.hpp"]}
{"id": "C57", "title": "Serialised buffers", "statement": "Reading a serialised object never reads beyond the buffer; truncated buffers are rejected.", "quantifier": "every byte string", "why_tests_cant": "every length", "anchors": ["src/pyinterp/core/include/pyinterp/detail/isviewstream.hpp", "src/pyinterp/core/include/pyinterp/histogram2d.hpp: unmarshal", "src/pyinterp/core/include/pyinterp/streaming_histogram.hpp"]}
{"id": "C58", "title": "Axis coordinates are the given values", "statement": "The coordinates of an axis built from values are those values: exactly for an irregular axis or a null tolerance, and within index * tolerance when the values are recognised as evenly spaced; longitudes that cross the origin are moved by at most one turn, in one direction, so that they become strictly monotone.", "quantifier": "all lists of values, tolerances, angle flag", "why_tests_cant": "every list of values of any length, every tolerance and every position of the origin crossing", "anchors": ["src/pyinterp/core/include/pyinterp/detail/axis.hpp: Axis::Axis, initialize_from_values, normalize_longitude, is_evenly_spaced"]}
{"id": "C59", "title": "Nearest index on a circular axis", "statement": "On an axis that covers the circle, find_index (not bounded) returns for every angle, whatever its number of turns, an index whose coordinate is at minimal angular distance.", "quantifier": "all circular axes and all angles", "why_tests_cant": "all circular grids, all angles including those between the last and the first point", "anchors": ["src/pyinterp/core/include/pyinterp/detail/axis.hpp: find_nearest_index, normalize_coordinate"]}
{"id": "C60", "title": "Decoding a geohash then encoding it is the identity", "statement": "Encoding the point decoded from a geohash code gives back the code, with or without rounding of the decoded point; a GeoHash object built from a text keeps the text, reducing it gives longitude, latitude and precision that rebuild the same object, and its neighbours are the texts of the neighbours of its integer code.", "quantifier": "every code and every precision", "why_tests_cant": "32^12 codes; the decimal rounding interacts with the width of every cell", "anchors": ["src/pyinterp/core/lib/geohash/int64.cpp: encode, decode", "src/pyinterp/core/include/pyinterp/geohash.hpp", "src/pyinterp/core/lib/geohash/string.cpp"]}
{"id": "C61", "title": "Geohash cells of a region", "statement": "The codes enumerated for a region list, each once, the cells that cover the region. (Only partly true: the last row and the last column of cells are dropped unless they touch the pole or the date line.)", "quantifier": "every box and precision", "why_tests_cant": "continuum of boxes", "anchors": ["src/pyinterp/core/lib/geohash/int64.cpp: bounding_boxes, grid_properties"]}
{"id": "C62", "title": "Streaming histogram accuracy", "statement": "While no more samples than bins have been pushed, the bins of a streaming histogram are exactly the samples; afterwards its mean stays exact and its variance never exceeds the variance of the samples.", "quantifier": "every sequence of samples and calls", "why_tests_cant": "histories of any length", "anchors": ["src/pyinterp/core/include/pyinterp/detail/math/streaming_histogram.hpp: update_bins, trim, variance"]}
{"id": "C63", "title": "Python a + b on binnings and statistics", "statement": "a + b for Binning1D, Binning2D, Histogram2D and DescriptiveStatistics returns an object holding the merge of a and b; b is not modified (and a should not be, but is).", "quantifier": "every pair of objects, including a + a", "why_tests_cant": "every state of the operands and aliasing pattern", "anchors": ["src/pyinterp/binning.py: __add__", "src/pyinterp/histogram2d.py: __add__", "src/pyinterp/statistics/descriptive_descriptive.py: __add__"]}
{"id": "C64", "title": "Interpolator objects have no memory", "statement": "The value returned by a 1-D interpolator object (Steffen, Akima, periodic Akima, polynomial, cubic spline) for given abscissas, ordinates and x does not depend on the calls made before on the same object nor on the contents of freshly allocated memory. (False for the periodic cubic spline, see C65.)", "quantifier": "every history of calls on the object, every data and x", "why_tests_cant": "the property ranges over all call histories", "anchors": ["src/pyinterp/core/include/pyinterp/detail/interpolation/steffen.hpp", "src/pyinterp/core/include/pyinterp/detail/interpolation/akima.hpp", "src/pyinterp/core/include/pyinterp/detail/interpolation/polynomial.hpp", "src/pyinterp/core/include/pyinterp/detail/interpolation/cspline.hpp"]}
{"id": "C65", "title": "Periodic cubic spline", "statement": "With at least four points and an object not used before with more points, the periodic cubic spline reproduces the nodes, has continuous first and second derivatives inside, and equal first and second derivatives at both ends; derivative returns its derivative. After a call with more points on the same object this is false, and with three points memory is read out of bounds.", "quantifier": "all strictly increasing abscissas, all ordinates, all x in range, all call histories", "why_tests_cant": "all sizes and data, solvability of the cyclic system for every mesh", "anchors": ["src/pyinterp/core/include/pyinterp/detail/interpolation/cspline_periodic.hpp"]}
{"id": "C66", "title": "Nearest neighbour queries of the mesh", "statement": "RTree.query returns for each point a row of k distances and values: the min(k, n) nearest observations from the nearest to the farthest, then -1; RTree.value returns the observations within the radius among them, padded with NaN; with within=True nothing is returned unless the point lies in the box of the neighbours.", "quantifier": "all meshes, points, radii and k, and every answer of the spatial index that satisfies its contract", "why_tests_cant": "The property ranges over all configurations of points and all ties between equidistant neighbours.", "anchors": ["src/pyinterp/core/include/pyinterp/rtree.hpp: query, value", "src/pyinterp/core/include/pyinterp/detail/geometry/rtree.hpp: query, query_within, value"]}
{"id": "C67", "title": "Contents of the mesh", "statement": "After packing and insert the mesh holds exactly the observations given, at the Cartesian position of their coordinates (2 or 3 columns, ECEF or geodetic); other shapes are refused; interpolating at the coordinates of an observation finds this observation.", "quantifier": "all matrices of coordinates and values, all sequences packing/insert/clear, all spheroids", "why_tests_cant": "Every shape, coordinate system and history of insertions must agree with every query method.", "anchors": ["src/pyinterp/core/include/pyinterp/rtree.hpp: packing, insert, from_xy, from_xyz, from_lon_lat, from_lon_lat_alt, universal_kriging"]}
{"id": "C68", "title": "Bounds of the mesh", "statement": "RTree.bounds is the smallest box in longitude, latitude and altitude that contains all the observations, and an empty tuple for an empty mesh.", "quantifier": "all contents of the mesh", "why_tests_cant": "It depends on the signs of all the coordinates stored.", "anchors": ["src/pyinterp/core/include/pyinterp/rtree.hpp: equatorial_bounds"]}
{"id": "C69", "title": "Pickling a mesh", "statement": "A mesh restored from its pickle has the same coordinate system and the same observations.", "quantifier": "all meshes", "why_tests_cant": "It must hold for every content and both coordinate systems.", "anchors": ["src/pyinterp/core/include/pyinterp/rtree.hpp: getstate, setstate"]}
{"id": "C70", "title": "Trigonometry in degrees", "statement": "sind, cosd, sincosd and tand are the trigonometric functions of the angle in degrees for every angle however large, and atan2d is the argument in degrees in (-180, 180] of every point other than the origin.", "quantifier": "all real angles and all points, and every width (at least 3 bits) of the quotient returned by remquo", "why_tests_cant": "The quadrant logic must hold for every angle, negative and large ones included.", "anchors": ["src/pyinterp/core/include/pyinterp/detail/math.hpp: sind, cosd, sincosd, tand, atan2d"]}
{"id": "C71", "title": "Geodetic to Cartesian coordinates", "statement": "lla_to_ecef maps altitude 0 to the ellipsoid, measures the altitude along the normal whose direction is given by the longitude and the latitude, is periodic in the longitude, and maps different positions on or above the ellipsoid to different points.", "quantifier": "all spheroids with positive axes and all positions", "why_tests_cant": "It is a statement on every position and every spheroid.", "anchors": ["src/pyinterp/core/include/pyinterp/detail/geodetic/coordinates.hpp: lla_to_ecef"]}
{"id": "C72", "title": "Cartesian to geodetic coordinates", "statement": "ecef_to_lla inverts lla_to_ecef: the longitude exactly, the latitude and the altitude exactly on a sphere, on the equator and on the polar axis, and elsewhere, when the square e2 of the eccentricity is at most 1/100 and the depth at most a tenth of the semi-major axis a, within 200 e2^7 radians and 3000 (a + |alt|) e2^10 (for WGS84, 1e-12 radian and a nanometre up to 100 000 km); both hemispheres and all meridians alike; transform gives the coordinates of the same point in the target system within the same bounds.", "quantifier": "all spheroids, all longitudes and latitudes, all altitudes above the vicinity of the centre", "why_tests_cant": "It is a statement on every position and every spheroid; the error bound holds between the sampled positions too.", "anchors": ["src/pyinterp/core/include/pyinterp/detail/geodetic/coordinates.hpp: ecef_to_lla, transform"]}
{"id": "C73", "title": "Derived quantities of a spheroid", "statement": "The axes, eccentricities, curvatures and radii of a spheroid satisfy their documented relations; the geocentric radius at a latitude is the distance of the points of the ellipsoid at this latitude to the centre; equality and pickling preserve the spheroid.", "quantifier": "all spheroids and latitudes", "why_tests_cant": "The relations must hold for every spheroid, spheres included.", "anchors": ["src/pyinterp/core/include/pyinterp/detail/geodetic/spheroid.hpp", "src/pyinterp/core/include/pyinterp/geodetic/spheroid.hpp"]}
{"id": "C74", "title": "Bicubic and spline interpolation of a window", "statement": "On a window with at least four increasing abscissas and ordinates, for every point of the window, the interpolators 'bicubic' and the tensor product of 'c_spline' return the same value: the natural cubic spline at y through the values at x of the natural cubic splines of the columns, which is also the value obtained with the rows first; this value is unique. For every 1-D class, the 2-D result is the 1-D interpolation of the columns followed by the 1-D interpolation of the results. 'bilinear' returns the bilinear function of the four corners of the cell, within their range. The values of the window are reproduced at its nodes. An object used on windows of one size gives, for every window, the result of a new object. Wrong shapes, too few points and points outside of the window are refused by 'bilinear' and 'bicubic'; unknown names are refused.", "quantifier": "all windows of any size, all values, all points, all previous calls on windows of the same size, all contents of new memory", "why_tests_cant": "The identity of the two implementations and the exchange of the two directions rest on the linearity of the solution of a tridiagonal system of any size; tests compare a few tables with tolerances.", "anchors": ["src/pyinterp/core/include/pyinterp/detail/interpolation/bicubic.hpp: Bicubic::compute_coefficients, Bicubic::interpolate_", "src/pyinterp/core/include/pyinterp/detail/interpolation/bilinear.hpp: Bilinear::interpolate_", "src/pyinterp/core/include/pyinterp/detail/math/spline2d.hpp: Spline2D::interpolate", "src/pyinterp/core/include/pyinterp/detail/interpolation/factory_2d.hpp: factory_2d"]}
{"id": "C75", "title": "Radial basis functions go through the observations", "statement": "Without smoothing, RTree.radial_basis_function evaluated at an observation that is among the neighbours used returns the value of that observation: for the gaussian, inverse_multiquadric, multiquadric and linear functions, for any two or more neighbours at distinct positions and any epsilon that is not zero (the system is proved to be invertible); the result is linear in the values and does not depend on the order of the neighbours; NaN and 0 without neighbours; with smoothing the residual at an observation is smooth times its weight. (It fails with a single neighbour for the functions that vanish at 0, and for thin_plate with observations one metre apart.)", "quantifier": "all sets of observations at distinct positions, all values, all queries, all epsilon, all correct solvers of linear systems", "why_tests_cant": "The guarantee rests on the invertibility of a matrix for every configuration of points; tests check a few configurations.", "anchors": ["src/pyinterp/core/include/pyinterp/detail/math/radial_basis_functions.hpp: RBF::interpolate", "src/pyinterp/core/include/pyinterp/detail/geometry/rtree.hpp: radial_basis_function, nearest, nearest_within"]}
{"id": "C76", "title": "Kriging is exact at the observations", "statement": "RTree.universal_kriging evaluated at an observation among the neighbours (positions distinct) returns its value, for every covariance function other than spherical (for which it is proved under the invertibility of the system) and linear with one neighbour; the estimate is linear in the values, does not depend on sigma nor on the order of the observations; sigma or lambda not greater than zero is refused; NaN and 0 without neighbours. (It is not a universal kriging: the weights do not sum to one and a constant field is not reproduced.)", "quantifier": "all sets of observations at distinct positions, all values, all positive sigma and lambda, all correct solvers", "why_tests_cant": "Positive definiteness of the covariance matrix for every set of points cannot be tested.", "anchors": ["src/pyinterp/core/include/pyinterp/detail/math/kriging.hpp: Kriging::universal_kriging", "src/pyinterp/core/include/pyinterp/detail/geometry/rtree.hpp: universal_kriging"]}
{"id": "C77", "title": "Covariance functions are covariances", "statement": "Every covariance function offered for kriging equals sigma squared at distance 0, stays between 0 and sigma squared, does not increase with the distance, depends on the distance relative to the scale only, and is the documented formula (false for linear, which is 0 at 0 and unbounded; the documented formulas of cauchy, spherical and linear are not those of the code).", "quantifier": "all distances, all sigma, all positive scales", "why_tests_cant": "Monotonicity and bounds over all real distances.", "anchors": ["src/pyinterp/core/include/pyinterp/detail/math/kriging.hpp: *_covariance*", "src/pyinterp/rtree.py: RTree.universal_kriging"]}
{"id": "C78", "title": "Names and data types of the Python interface", "statement": "The names of radial basis and covariance functions accepted by the Python interface are exactly the documented ones, each gives the function of that name, every other text is refused, epsilon is refused exactly for the functions that do not use it; exactly the ten documented numpy types are accepted and the class chosen holds the values of the type. (False: the documented covariances cauchy and whittle_matern raise; 32-bit integers are stored in simple precision, 64-bit integers in double precision.)", "quantifier": "all texts, all data types", "why_tests_cant": "Ranges over all texts; tests try a few names.", "anchors": ["src/pyinterp/interface.py: _core_class_suffix, _core_covariance_function, _core_radial_basis_function", "src/pyinterp/core/module/enum.cpp"]}
{"id": "C79", "title": "Windows of pyinterp.bicubic", "statement": "For a point with enough coordinates around it, pyinterp.bicubic uses the 2*nx successive abscissas and 2*ny successive ordinates of the grid around the point (with nx, ny on each side, across the end of a circular x axis, brought to one turn when the x axis is an angle) and returns the value of the chosen 2-D interpolator on that window; with 'bicubic' and 'c_spline' this is the value of the natural cubic splines of the window. At the nodes it returns the values of the grid. A NaN in the window gives NaN. Without enough coordinates around the point, or outside of the grid, the result is NaN, or an exception if bounds_error is set; a half size of zero is refused.", "quantifier": "all increasing axes (plain, angular, circular), all values including NaN, all points, all half sizes, all boundary modes, all previous uses of the interpolator", "why_tests_cant": "The window depends on the position of the point relative to every coordinate, on whole turns and on the end of the circle; tests check a few points far from the ends.", "anchors": ["src/pyinterp/core/include/pyinterp/frame.hpp: load_frame", "src/pyinterp/core/include/pyinterp/detail/math/frame.hpp: Frame2D::normalize_angle, Frame2D::is_valid", "src/pyinterp/core/include/pyinterp/detail/axis.hpp: Axis::find_indexes", "src/pyinterp/core/module/bicubic.cpp: bicubic"]}
{"id": "C80", "title": "Calls of pyinterp.bicubic: threads, 3-D and 4-D grids, arguments", "statement": "The values returned by pyinterp.bicubic are, in the order of the points, those obtained for each point alone with a new interpolator: they do not depend on the number of threads, on the other points of the call nor on the content of the memory allocated; the call raises exactly when the interpolation of a point raises. On 3-D and 4-D grids the result is on the straight line between the results of the two layers whose coordinates frame z (then u), NaN if one of them is NaN; a z axis of one coordinate gives the result of its only layer at that coordinate. Only increasing x and y axes, the eight documented models and the four boundary names are accepted; missing z or u and vectors of different lengths are refused.", "quantifier": "all grids, all lists of points, all numbers of threads, all half sizes, models and boundary modes", "why_tests_cant": "The interpolators keep work arrays from one point to the next, so that the result could depend on the history and on the split of the points between threads.", "anchors": ["src/pyinterp/core/module/bicubic.cpp: bicubic, bicubic_3d, bicubic_4d, parse_axis_boundary", "src/pyinterp/interpolator/bicubic.py: bicubic", "src/pyinterp/core/include/pyinterp/detail/thread.hpp: dispatch", "src/pyinterp/core/include/pyinterp/detail/math/linear.hpp: linear"]}
{"id": "C81", "title": "Absolute pass numbers", "statement": "Orbit.encode_absolute_pass_number and Orbit.decode_absolute_pass_number are inverse of each other: the absolute number of the pass p of the cycle c is decoded into (c, p), every absolute number from 1 on is decoded into a pass of the cycle whose absolute number it is; a pass number outside 1..passes_per_cycle is refused by the encoder. (The decoder divides in double precision: true up to 2^53; numbers below 1 are not refused and are decoded wrongly.)", "quantifier": "all numbers of passes per cycle, all cycles and passes up to 2^53, any rounding to the nearest of the quotient", "why_tests_cant": "The quotient is computed in floating point and truncated: exactness over all numbers is a rounding argument.", "anchors": ["src/pyinterp/orbit.py: Orbit.encode_absolute_pass_number, Orbit.decode_absolute_pass_number"]}
{"id": "C82", "title": "Enumeration of passes", "statement": "Orbit.iterate(first_date, last_date, absolute_pass_number) yields the passes absolute_pass_number, absolute_pass_number + 1, ... in order and without omission, each with its cycle number, its pass number and its date; the dates are those of pass_time in every cycle, cycles follow each other with the period of the orbit; the enumeration stops exactly before the first pass whose date is after last_date, and it ends; the duration of a pass is the time to the next one and the durations of a cycle add up to the period. (False for a first date equal to 1970-01-01, replaced by the current date.)", "quantifier": "all orbits with at least two samples, all first passes, all dates other than the epoch, any number of items consumed", "why_tests_cant": "An unbounded enumeration with accumulated dates over cycles.", "anchors": ["src/pyinterp/orbit.py: Orbit.iterate, Orbit.pass_duration"]}
{"id": "C83", "title": "Samples of a pass", "statement": "The passes 1..passes_per_cycle of an orbit share out its samples: every sample belongs to exactly one pass; calculate_pass returns the samples of the orbit whose date is in the pass, in their order, restricted to the bounding box; None with fewer than five samples or none in the box; a pass number above passes_per_cycle is an error and the pass 0 is empty. (Negative numbers are not refused: the pass -m is the pass n-m.)", "quantifier": "all orbits with sorted pass dates, all pass numbers, all boxes", "why_tests_cant": "Partition of all samples for all date sequences.", "anchors": ["src/pyinterp/orbit.py: calculate_pass"]}
{"id": "C84", "title": "Passes are half-orbits", "statement": "The latitudes of the samples of a pass all grow or all decrease, there are as many passes as turning points of the latitude, the first one begins with the first sample, every date of a pass is the date of a sample; an ephemeris without turning point is an error. (False for the first pass if the ephemeris begins in the middle of a pass; two equal consecutive latitudes split a pass.)", "quantifier": "all ephemerides with growing dates and without equal consecutive latitudes, all passes", "why_tests_cant": "The turning points are found by signs of differences on a circular array; the claim concerns every sample between two of them.", "anchors": ["src/pyinterp/orbit.py: _calculate_pass_time, calculate_pass"]}
{"id": "C85", "title": "Rearrangement of an orbit", "statement": "The orbit is rearranged to begin with the first ascent without loss of samples: same samples in circular order, dates counted from the first one, growing, with the same steps. (True with one ascent only: with two ascents or more the function returns its arguments; the branch of calculate_orbit for an ephemeris that begins near the equator keeps the turning points only.)", "quantifier": "all ephemerides with growing dates", "why_tests_cant": "Quantifies over the positions of the ascents.", "anchors": ["src/pyinterp/orbit.py: _rearrange_orbit, calculate_orbit"]}
{"id": "C86", "title": "Crossing of the equator", "statement": "The equator coordinates of a pass come from two neighbouring samples on both sides of the equator, one of which is the nearest sample to the equator; the longitude is that of the intersection of their segment with the equator, the time is between the times of the two samples; without intersection the coordinates are undefined. (False when the first sample of the pass is the nearest one: IndexError.)", "quantifier": "all half-orbits that cross the equator, all distances and intersections", "why_tests_cant": "The choice of the two samples depends on the place of the minimum in the pass.", "anchors": ["src/pyinterp/orbit.py: _equator_properties"]}
{"id": "C87", "title": "Pixels of a swath", "statement": "core.geodetic.calculate_swath on n nadir points returns n rows of 2*half_swath pixels, all defined: in the row of a nadir point the column half_swath+j is the nadir point turned to the right of the flight by (j*delta_ac+half_gap)/R around the direction of flight, R being the distance of the nadir point to the centre of the Earth, the column half_swath-1-j the one turned to the left by the same angle. Both are at the same distance of the nadir point, on both sides of the track, at the distance R of the centre; if the flight is horizontal the great circle arc from the nadir to the pixel has the length j*delta_ac+half_gap. Arrays of different sizes are refused. (Fewer than three nadir points: undefined behaviour.)", "quantifier": "all tracks of at least three points whose second neighbours are different, all spheroids, resolutions, gaps, widths", "why_tests_cant": "Geometry over all positions and directions; tests compare a few values.", "anchors": ["src/pyinterp/core/include/pyinterp/geodetic/swath.hpp: calculate_swath", "src/pyinterp/core/include/pyinterp/detail/math/orbit.hpp: satellite_direction, rotation_3d_matrix"]}
{"id": "C88", "title": "Interpolation of an orbit", "statement": "orbit.interpolate returns one position by date asked for, NaN outside of the dates of the orbit, and at the dates of the samples it returns the longitude and the latitude of the samples. (False for the latitude on a flattened spheroid: at a sample between the equator and a pole the point computed is on the parallel of no altitude of this latitude; true for the longitude, and for both on a sphere.)", "quantifier": "all orbits of at least four samples with growing dates, all half windows of at least 3, all heights not negative", "why_tests_cant": "Exactness at all nodes for all orbits; the test of the repository only compares with stored values.", "anchors": ["src/pyinterp/orbit.py: interpolate"]}
{"id": "C89", "title": "Arrays of calculate_swath: distances, mask, central pixel", "statement": "orbit.calculate_swath gives 2n across track distances, symmetric, from half_gap to the last multiple of the resolution that fits in half_swath, equal to the distances of the pixels; Swath.mask is 1 for pixels whose distance is in the bounds and NaN for the others; Swath.insert_central_pixel puts the nadir in the middle and keeps the other pixels. (False: the distances use the along track resolution, the pixels the across track one; half_gap = 0 is replaced by 2 km; a half swath shorter than the half gap by two resolutions gives arrays of negative size.)", "quantifier": "all resolutions, half swaths, half gaps, bounds and lines", "why_tests_cant": "Quantifies over all numeric arguments; the tests use the default ones, for which the two resolutions are equal.", "anchors": ["src/pyinterp/orbit.py: calculate_swath, Swath.mask, Swath.insert_central_pixel"]}
{"id": "C90", "title": "Unrolling of two half-orbits", "statement": "Before the crossover is searched in the plane, two half-orbits that together span less than 360 degrees of longitude (longitudes recorded in any window of one turn, crossing the date line or not, going east or west, by less than 180 degrees between measurements) are brought to their true continuous tracks, each one shifted as a whole by a number of turns, both in one window of one turn; the latitudes do not change. For all half-orbits whatever, no point leaves its meridian or its parallel; fewer than three points are refused. (False when the half-orbits are wider, as those of a sun-synchronous satellite: a line comes out torn.)", "quantifier": "all pairs of half-orbits, all windows of longitudes", "why_tests_cant": "All positions of both tracks relative to the date line and to each other, all directions.", "anchors": ["src/pyinterp/core/include/pyinterp/detail/geometry/crossover.hpp: is_retrograde, normalize_line_strings"]}
{"id": "C91", "title": "Crossover of two half-orbits in the plane", "statement": "calculate_crossover(lon1, lat1, lon2, lat2, cartesian_plane=True): the crossing points are those of the continuous tracks; no crossing point gives None, two different ones an exception, otherwise the point with a longitude in [-180, 180) and for each half-orbit the index of the measurement nearest to it in the plane (the first one if several are), unless the geodetic distance of one of these measurements exceeds the predicate, then None.", "quantifier": "all pairs of half-orbits as in C90, all predicates, all intersection and distance functions", "why_tests_cant": "All tracks and limits; the answer depends on all the points of both lines.", "anchors": ["src/pyinterp/core/lib/geodetic/crossover.cpp: crossover", "src/pyinterp/core/include/pyinterp/detail/geometry/crossover.hpp: Crossover, nearest_point"]}
{"id": "C92", "title": "List of the crossovers, ellipsoid, errors", "statement": "calculate_crossover_list returns, in the order of the crossing points, the outcome of C91 of every crossing point that is near enough; when calculate_crossover returns a crossover, the list contains this crossover only (perhaps several times), when it returns None the list is empty. On the ellipsoid Crossover.nearest and calculate_crossover return the indices of closest measurements or None if one is too far. Arrays of different sizes, or of fewer than three points in the plane, are refused; in the plane no undefined behaviour whatever the data. (Crossover.nearest with an empty half-orbit is undefined behaviour; a NaN distance passes the predicate.)", "quantifier": "all arrays, predicates, intersection, distance and nearest functions", "why_tests_cant": "All numbers of crossing points and all the combinations of kept and discarded ones.", "anchors": ["src/pyinterp/core/lib/geodetic/crossover.cpp: crossover_list, Crossover::nearest, NearestPoint"]}
{"id": "C93", "title": "Line strings and functions on arrays of points", "statement": "A LineString built from two arrays of the same size has the points of the arrays in order; pickling and GeoJSON coordinates give the line string back, whatever its coordinates; indexing outside the line raises. curvilinear_distance has one value per point: 0 for the first, then the sum of the distances of the successive points, so it never decreases. coordinate_distances and covered_by on arrays refuse arrays of different sizes and otherwise give for each index, whatever the number of threads and their schedule, the value for the point(s) of this index only; an exception for a point is reported. closest_point on arrays does the same for arrays of the same size (the sizes of lon and lat are not compared: a shorter lat is read out of its range).", "quantifier": "all line strings, arrays, distance functions, numbers of threads and schedules", "why_tests_cant": "All sizes, coordinates and interleavings of the threads.", "anchors": ["src/pyinterp/core/lib/geodetic/line_string.cpp", "src/pyinterp/core/include/pyinterp/geodetic/line_string.hpp: LineString", "src/pyinterp/core/include/pyinterp/geodetic/algorithm.hpp: coordinate_distances, covered_by"]}
{"id": "C94", "title": "Polygons, multi-polygons and boxes", "statement": "Pickling (or writing in GeoJSON and reading) a polygon or a multi-polygon keeps the rings in order, but drops the empty inner rings: the copy is equal exactly when there is none. GeoJSON arrays are accepted exactly when every point has two coordinates. Items, append, +, num_interior_rings and `in` of a multi-polygon behave as those of the list of its polygons (`m += m` is undefined behaviour). Box(a, b) is accepted exactly when both longitudes are in [-180, 180]; its corners are the points given ordered by longitude; the latitudes are not ordered. Pickling gives back every box that satisfies this condition, in particular all the constructed ones; a box modified by the setters may fail to be unpickled.", "quantifier": "all polygons, multi-polygons, boxes, GeoJSON arrays", "why_tests_cant": "All numbers of rings, sizes and coordinates.", "anchors": ["src/pyinterp/core/lib/geodetic/polygon.cpp", "src/pyinterp/core/lib/geodetic/multipolygon.cpp", "src/pyinterp/core/include/pyinterp/geodetic/box.hpp: Box", "src/pyinterp/core/module/geodetic.cpp: init_geodetic_box"]}
{"id": "C95", "title": "Grids of Python: increasing_axes and pickling", "statement": "Grid2D/Grid3D/Grid4D(..., increasing_axes='inplace' or 'copy'), when it succeeds, gives a grid whose axes all increase and that has the same nodes as the arguments: each node of the arguments (its coordinates and its value) is a node of the grid and conversely. With 'copy' the axes of the caller are unchanged; any other value of increasing_axes is refused. Pickling a grid gives a grid with the same axes and the same values.", "quantifier": "all axes (float or dates, regular or not, of any size, held by a program), all arrays, 2 to 4 dimensions", "why_tests_cant": "All combinations of directions, sizes, shared axis objects and histories of the axes.", "anchors": ["src/pyinterp/grid.py: Grid2D.__init__, Grid3D, Grid4D", "src/pyinterp/core/module/axis.cpp: flip", "src/pyinterp/core/include/pyinterp/grid.hpp: getstate, setstate"]}
{"id": "C96", "title": "Grids built from an xarray DataArray have its nodes", "statement": "pyinterp.backends.xarray.Grid2D/Grid3D/Grid4D/RegularGridInterpolator: whatever the order of the dimensions of the DataArray, the direction of its coordinates and the order in which Python enumerates the set of the other dimensions, the grid has the same nodes as the DataArray (same coordinates along each dimension, same value), and only increasing axes with increasing_axes=True. The X and Y axes of a geodetic grid are the first coordinates with a CF unit of longitude and latitude. A DataArray without longitude or latitude, or with fewer than 2 or more than 4 dimensions, is refused.", "quantifier": "all DataArrays (dimensions, coordinates, attributes, values), all enumerations of the set of dimensions", "why_tests_cant": "All permutations of dimensions, directions and coordinates; the enumeration of the set depends on the hash seed of the process.", "anchors": ["src/pyinterp/backends/xarray.py: AxisIdentifier, _dims_from_data_array, Grid2D, Grid3D, Grid4D, RegularGridInterpolator", "src/pyinterp/cf.py"]}
{"id": "C97", "title": "Interpolation of a DataArray by names", "statement": "RegularGridInterpolator.__call__ receives the coordinates of the points by name: the order of the names does not matter, and a dictionary that does not have exactly the dimensions of the grid is refused. At a node of the DataArray (all values defined, increasing_axes=True), given by the coordinates of its axes, linear interpolation returns the value of the DataArray at this node; on a geodetic grid the longitude can be given in any turn.", "quantifier": "all DataArrays of 2, 3 or 4 dimensions (with or without a time axis), all nodes, all orders of the dimensions and of the names", "why_tests_cant": "All grids, nodes and permutations.", "anchors": ["src/pyinterp/backends/xarray.py: _coords, RegularGridInterpolator.__call__", "src/pyinterp/interpolator/bivariate.py", "src/pyinterp/interpolator/trivariate.py", "src/pyinterp/interpolator/quadrivariate.py"]}
{"id": "C98", "title": "Temporal axes: units of the dates", "statement": "TemporalAxis(points) keeps the dates and their unit: axis[i] is points[i] in the type axis.dtype(). find_index and find_indexes accept dates of any unit: the index returned is that of a nearest date in time (the two dates frame the date in time), or -1 outside, whatever the unit of the array and the unit of the axis are; dates of a shorter unit are truncated to the unit of the axis with a warning (an error if warnings are errors); arrays that are not one-dimensional contiguous arrays of the kind of the axis (dates, or time differences) are refused. Pickling and flip(inplace=False) keep the unit; axes with different dates are different.", "quantifier": "all arrays of dates, units, queried dates, axes with evenly spaced dates or not", "why_tests_cant": "All pairs of units and all dates.", "anchors": ["src/pyinterp/core/include/pyinterp/temporal_axis.hpp: TemporalAxis, safe_cast, find_index, find_indexes, getstate, setstate", "src/pyinterp/core/include/pyinterp/dateutils.hpp: DType", "src/pyinterp/core/module/axis.cpp: flip, __eq__", "src/pyinterp/core/include/pyinterp/grid.hpp: getstate"]}
{"id": "C99", "title": "Text of a date", "statement": "The text of a date (datetime64_to_str, messages of the temporal axes) is its ISO 8601 text down to its unit: year, month, day, hours, minutes, seconds and decimals of the moment of the proleptic Gregorian calendar that is `value` units after 1970, also before 1970; two dates of the same unit with the same text are the same date.", "quantifier": "all dates and all units", "why_tests_cant": "All dates of all units; the fields are padded and concatenated.", "anchors": ["src/pyinterp/core/include/pyinterp/dateutils.hpp: datetime64_to_string", "src/pyinterp/core/module/dateutils.cpp: datetime64_to_str"]}
{"id": "C100", "title": "R-tree on geographic coordinates", "statement": "core.geodetic.RTree holds exactly the observations given by packing and insert, with longitudes brought in [-180, 180); arrays of different sizes are refused. query returns for each point the distances and values of the k nearest observations, then -1. inverse_distance_weighting returns the value of an observation that is hit, otherwise the mean of the neighbours within the radius with weights 1/distance^p; window_function the mean with the weights of the window; radial_basis_function goes through the observations used; NaN and 0 when there is no neighbour, or when within is asked for and the point is not in the envelope of the neighbours. The answers do not change when the longitudes of the queries or of the observations change by whole turns. Pickling keeps the spheroid and the observations, in another content.", "quantifier": "all observations, queries, radii, numbers of neighbours, spheroids, histories of packing/insert/clear/copy/pickle over any number of trees", "why_tests_cant": "All contents, positions and turns, several trees with shared contents.", "anchors": ["src/pyinterp/core/lib/geodetic/rtree.cpp: RTree", "src/pyinterp/core/include/pyinterp/geodetic/rtree.hpp: RTree", "src/pyinterp/core/include/pyinterp/detail/geometry/rtree.hpp: RTree with a strategy", "src/pyinterp/core/module/geodetic.cpp: RTree"]}
{"id": "C101", "title": "geohash.where", "statement": "For an array of two dimensions of codes, where returns one entry for each code of the array and only for these: the first and last row and column of the box that the code fills. When the occurrences of a code fill a rectangle, the ranges returned are those of the rectangle. Other arrays (not contiguous, other dimensions, not bytes, more than 12 characters) are refused.", "quantifier": "all arrays, shapes, lengths of codes and layouts of codes", "why_tests_cant": "All arrangements of codes in all shapes; the scan keeps a running state.", "anchors": ["src/pyinterp/core/lib/geohash/string.cpp: where", "src/pyinterp/core/module/geohash/string.cpp: where"]}
{"id": "C102", "title": "Geohash codes of a polygon", "statement": "bounding_boxes of a polygon or a multipolygon returns, without repetition and in the order of the grid, the codes of the given precision whose cell meets the geometry. Precisions above 12 are refused.", "quantifier": "all geometries (through their envelope and their intersection with each cell), precisions from 1 to 12, processors with or without BMI2", "why_tests_cant": "All geometries, positions and precisions.", "anchors": ["src/pyinterp/core/lib/geohash/string.cpp: bounding_boxes(polygon), mask_cell, select_cell", "src/pyinterp/core/module/geohash/string.cpp: bounding_boxes"]}
{"id": "C103", "title": "Encoding and decoding arrays of codes", "statement": "geohash.encode of two arrays of the same size returns, in the order, the code of each point; geohash.decode of an array of codes (possibly shorter than the elements of the array) returns, in the order, the point of each code; encoding the decoded points again gives the same codes. Arrays of other sizes, kinds or dimensions, and elements that are not codes, are refused.", "quantifier": "all arrays, all precisions from 1 to 12, all layouts in memory", "why_tests_cant": "All contents and paddings.", "anchors": ["src/pyinterp/core/lib/geohash/string.cpp: encode, decode, Array::get_info", "src/pyinterp/core/include/pyinterp/geohash/string.hpp: Array", "src/pyinterp/core/module/geohash/string.cpp: encode, decode"]}
{"id": "C104", "title": "GeoHash.grid", "statement": "GeoHash.grid returns a grid that holds exactly the codes of the box, each once, with increasing longitudes along the columns and decreasing latitudes along the rows; the code of a row and a column is that of the cell whose centre is at the coordinates of this row and this column; without a box, each code of the precision is in the grid. The attributes of the coordinates name their units.", "quantifier": "all boxes on the Earth, precisions from 1 to 12", "why_tests_cant": "All boxes and precisions.", "anchors": ["src/pyinterp/_geohash.py: GeoHash.grid"]}
{"id": "C105", "title": "geohash.to_xarray", "statement": "to_xarray of an array of codes and of their data returns a grid of the whole Earth with one cell for each code of the precision, increasing longitudes and latitudes; the value of the cell of a code is the datum of the (last) occurrence of the code, zero when there is none. Sizes that differ, arrays that are not bytes or with elements above 12 bytes are refused. The attributes of the coordinates name their units.", "quantifier": "all arrays of codes, data, precisions from 1 to 12", "why_tests_cant": "All codes of all precisions, in any order with any repetition.", "anchors": ["src/pyinterp/geohash/converter.py: to_xarray"]}
{"id": "C106", "title": "push_delayed of the binnings and of Histogram2D", "statement": "push_delayed on dask arrays gives, whatever the blocks and the order in which dask adds the partial results, a new object equal to what push puts in a new instance built with the same parameters (axes, spheroid, range, number of bins, type) when it receives all the samples at once; the instance and the other objects are not modified.", "quantifier": "all axes, all samples, all ways of cutting them in blocks, all trees of additions", "why_tests_cant": "All partitions in blocks and all orders of reduction (the schedule belongs to dask).", "anchors": ["src/pyinterp/binning.py: Binning2D.push_delayed, Binning1D.push_delayed, __add__", "src/pyinterp/histogram2d.py: Histogram2D.push_delayed, __add__", "src/pyinterp/core/include/pyinterp/binning.hpp: Binning2D, Binning1D"]}
{"id": "C107", "title": "Statistics of dask arrays", "statement": "DescriptiveStatistics and StreamingHistogram of a dask array are those of the same array in memory, for each choice of axes, whatever the chunks along the first axis and the order of the additions.", "quantifier": "all shapes, axes, values with or without NaN, chunks, trees of additions", "why_tests_cant": "All chunkings and all orders of reduction.", "anchors": ["src/pyinterp/statistics/descriptive_descriptive.py: _delayed", "src/pyinterp/statistics/streaming_histogram.py: _delayed", "src/pyinterp/core/include/pyinterp/descriptive_statistics.hpp: operator+="]}
{"id": "C108", "title": "variable of the binnings", "statement": "After any sequence of pushes, variable(name) returns an array with the shape of the grid whose element (i, j) is the named statistic (count, kurtosis, max, mean, min, skewness, sum, sum_of_weights, variance) of the values, with their weights, that the samples give to this bin, NaN for an empty bin (0 for the counts and sums); it never modifies the instance; every other name is refused.", "quantifier": "all axes, sequences of pushes (simple, linear, weighted), names", "why_tests_cant": "All samples and all texts.", "anchors": ["src/pyinterp/binning.py: Binning2D.variable, Binning1D.variable", "src/pyinterp/core/include/pyinterp/binning.hpp: calculate_statistics"]}
{"id": "C109", "title": "Periods of Python with dates of any unit", "statement": "A pyinterp.Period stands for the instants from the beginning of its first unit of time to the end of its last one. Built from two dates of any units it has the instants from the first date to the second one (excluded without within). contains(date), is_before and is_after agree with these instants for dates of any unit; contains, intersects, intersection, is_adjacent, merge, == and < of two periods agree with their instants whatever their units; as_resolution keeps the units of time that meet the period; pickling rebuilds the period.", "quantifier": "all periods, dates and pairs of periods, all pairs of units", "why_tests_cant": "All dates and all pairs of units, including the months and years of the calendar.", "anchors": ["src/pyinterp/period.py: Period", "src/pyinterp/core/include/pyinterp/period.hpp: Period"]}
{"id": "C110", "title": "Lists of periods of Python with dates of any unit", "statement": "belong_to_a_period, cross_a_period and is_it_close of a PeriodList give, for dates and tolerances of any unit, the answer of the instants; merge gives the union of the instants of two lists of any units; within and intersection keep the periods that meet the given period, of any unit; filter and join_adjacent_periods convert the durations; pickling rebuilds the list and the dates are those it was built from.", "quantifier": "all sorted lists of periods, dates, durations and units", "why_tests_cant": "All lists, dates and pairs of units.", "anchors": ["src/pyinterp/period.py: PeriodList", "src/pyinterp/core/include/pyinterp/period.hpp: PeriodList"]}
{"id": "C111", "title": "gauss_seidel of Python", "statement": "fill.gauss_seidel returns (converged, array). For a grid of 3 dimensions each layer is filled exactly as the 2-dimensional grid made of this layer, whatever the number of workers, the interleaving of the tasks and the order in which they complete; defined values are kept, no value remains undefined. converged is true if and only if the residuals of all the layers do not exceed epsilon, and then every filled value is the mean of its four neighbours up to (1 + |1 - w|/|w|) epsilon. Only the first guesses zero and zonal_average, non-negative numbers of iterations and of threads are accepted. The default relaxation constant is strictly between 0 and 2 for every grid, and greater than 1 for square grids of 4 x 4 cells or more.", "quantifier": "all arrays of 2 and 3 dimensions, arguments, schedules of the pool of threads, orders of completion", "why_tests_cant": "All interleavings of the tasks and completion orders, all sizes.", "anchors": ["src/pyinterp/fill.py: gauss_seidel", "src/pyinterp/core/module/fill.cpp: implement_fill_functions"]}
{"id": "C112", "title": "vector and matrix of Python", "statement": "fill.vector fills the gaps of an array of floating point numbers, integers, dates or durations, the undefined elements being NaN or those equal to fill_value; fill.matrix does it for the two-dimensional arrays of floating point numbers. With in_place=False the array of the caller is not modified, with in_place=True the array returned is the array of the caller; arrays with another number of dimensions, unknown types and filling values of another kind are refused without modification.", "quantifier": "all arrays, types of elements, filling values, in_place", "why_tests_cant": "All contents and combinations of types and filling values.", "anchors": ["src/pyinterp/fill.py: vector, matrix", "src/pyinterp/core/module/fill.cpp: vector_float64, vector_int64, matrix_float64"]}
{"id": "C113", "title": "Dates of arrays", "statement": "For every one-dimensional array of datetime64 of a unit from the second to the attosecond, date, time, weekday and isocalendar return, index by index, the civil date, the time of day, the weekday counted from Sunday and the ISO 8601 week date of the instant the element counts since 1970; timedelta_since_january returns the time elapsed since January 1st of the year of the element in the unit of the array; datetime returns the Python objects truncated to the microsecond and raises an exception exactly when a year is outside 1..9999. Arrays of another dimension, type or unit are refused by every function. No array makes the functions overflow an integer.", "quantifier": "every array, of every supported unit, every 64-bit integer as element", "why_tests_cant": "the domain is every list of 64-bit integers times the units; the calendar arithmetic overflows 32 or 64 bits only for elements far from the usual ones", "anchors": ["src/pyinterp/core/module/dateutils.cpp: date, datetime, isocalendar, weekday, time, timedelta_since_january", "src/pyinterp/core/include/pyinterp/dateutils.hpp", "src/pyinterp/core/module/dateutils.cpp"]}
{"id": "C114", "title": "Coordinates of arrays", "statement": "Coordinates.lla_to_ecef, ecef_to_lla and transform refuse arrays of different sizes; otherwise, for every number of threads and every schedule, the element of index i of the results is the conversion of the position of index i and nothing else is written. Applied one after the other, lla_to_ecef and ecef_to_lla give back every longitude exactly and every latitude and altitude within the bounds of C72.", "quantifier": "all arrays, numbers of threads, schedules, spheroids", "why_tests_cant": "all interleavings of the threads and all positions", "anchors": ["src/pyinterp/core/include/pyinterp/geodetic/coordinates.hpp: ecef_to_lla, lla_to_ecef, transform"]}
{"id": "C115", "title": "normalize_longitudes of Python", "statement": "pyinterp.geodetic.normalize_longitudes returns, index by index, the longitudes brought to [min_lon, min_lon + 360), for every array; a writeable array is changed in place and returned, a read-only array is left as it is and a new array is returned; a second call changes nothing.", "quantifier": "all arrays (type, strides, writeable or not), all values of min_lon", "why_tests_cant": "the overload selected depends on the type, the strides and the flags of the array", "anchors": ["src/pyinterp/geodetic/__init__.py: normalize_longitudes", "src/pyinterp/core/module/geodetic.cpp: normalize_longitudes"]}
{"id": "C116", "title": "The Python RTree object: construction, history, copy and pickle", "statement": "pyinterp.RTree accepts exactly the data types float64 (default) and float32 and refuses a geodetic system together with ecef; after any history of packing, insert and clear calls, refused ones included, len(tree) is the number of observations of the accepted calls since the last packing or clear, bool(tree) tells whether it is not zero, and the coordinate system and the data type are those of the construction; a pickled or copied mesh equals the original; a shallow copy of a core mesh shares its observations.", "quantifier": "every construction, every finite history of calls with arbitrary matrices, every mesh", "why_tests_cant": "all histories of calls and all contents; the test of the pickle only looks at the type of the result", "anchors": ["src/pyinterp/rtree.py: RTree.__init__, packing, insert, clear, __len__, query, __getstate__, __setstate__", "src/pyinterp/core/module/rtree.cpp: __copy__, py::pickle", "src/pyinterp/core/include/pyinterp/detail/geometry/rtree.hpp: tree_"]}
{"id": "C117", "title": "Equality, copies and flipped copies of axes", "statement": "Two axes are equal exactly when they have the same coordinates and the same nature, equality is an equivalence and equal axes answer every query alike; a copy is the same axis; flip(inplace=True) reverses the axis, flip(inplace=False) leaves it unchanged and returns the same reversed axis; increment() is the difference of any two consecutive coordinates of a regular axis and raises for the others.", "quantifier": "every floating point axis a program can build, flip or pickle, every pair and triple of axes", "why_tests_cant": "all pairs of axes, all histories of construction, flips and pickles", "anchors": ["src/pyinterp/core/module/axis.cpp: flip, __copy__, __eq__, increment", "src/pyinterp/core/include/pyinterp/detail/axis.hpp: operator==, Axis(const Axis &), clone, increment", "src/pyinterp/core/include/pyinterp/axis.hpp: getstate, setstate"]}
{"id": "C118", "title": "Range, copies and pickling of Binning1D", "statement": "A Binning1D built with a range keeps it, otherwise its range is that of its axis; after any pushes, pickling it gives a Binning1D with the same axis, range and statistics, a state with another shape is refused, and copying it gives a Binning1D with the same axis, range and statistics.", "quantifier": "all axes, ranges and sequences of pushes", "why_tests_cant": "All histories and all axes.", "anchors": ["src/pyinterp/core/include/pyinterp/binning.hpp: Binning1D", "src/pyinterp/core/module/binning.cpp: implement_binning"]}
{"id": "C119", "title": "Statistics and binning objects are independent values", "statement": "In every program that creates DescriptiveStatistics, StreamingHistogram or binning objects, copies them, adds them and pushes data, each operation changes only the object it is called on: a copy or a sum keeps its value whatever is done to the originals, and a refused += changes nothing.", "quantifier": "all programs: all sequences of operations, all operands including an object with itself, all values", "why_tests_cant": "Aliasing shows only in the histories that modify one of the sharing objects later; a test visits a few histories.", "anchors": ["src/pyinterp/statistics/descriptive_descriptive.py: DescriptiveStatistics.copy, __iadd__, __add__", "src/pyinterp/statistics/streaming_histogram.py: __iadd__, __add__", "src/pyinterp/binning.py: __add__", "src/pyinterp/histogram2d.py: __add__"]}
{"id": "C120", "title": "Geohash codes computed with doubles", "statement": "With the rounding of double arithmetic, on both code paths (portable and BMI2), encoding a position gives the code that exact arithmetic gives for a position at most 2^-42 degrees away (2^-41 for the longitude in the Python function, which normalises it first, up to a number of turns); decoding makes no rounding error at all: the corners of the cells are exact.", "quantifier": "all doubles in the domain of latitudes and longitudes, all precisions, both processors", "why_tests_cant": "There are 2^64 doubles per coordinate; rounding errors near the edges of the cells and of the domain concern isolated doubles that no sample meets (the last double below 90 is indeed mishandled).", "anchors": ["src/pyinterp/core/lib/geohash/int64.cpp: encode, encode_range, encode_bim2, decode_range", "src/pyinterp/core/include/pyinterp/detail/math.hpp: normalize_angle", "src/pyinterp/core/lib/geohash/string.cpp: encode"]}
{"id": "C121", "title": "Normalisation of angles computed with doubles", "statement": "With the rounding of double arithmetic, the normalised angle lies between min and min + 360 and differs from the angle given by a whole number of turns up to a relative rounding error.", "quantifier": "all doubles x, all lower bounds min with |min| <= 360", "why_tests_cant": "The result depends on the rounding of three operations for every double; the doubles just below min (which give min + 360 exactly, outside the half-open interval) are isolated points.", "anchors": ["src/pyinterp/core/include/pyinterp/detail/math.hpp: remainder, normalize_angle"]}
{"id": "C122", "title": "Regular axes of doubles", "statement": "With the rounding of double arithmetic, a regular axis has exactly the size and first value given and its last value up to a few roundings; its coordinates are strictly monotone in the direction is_ascending gives; searching one of its coordinates gives back its index; a coordinate between its first and last coordinates is framed, as doubles and without tolerance, by the two consecutive coordinates find_indexes returns, and one outside by none; the nearest index is the nearest up to a fraction of a step; the same holds after flip. The last value given, pickling and flipping twice are NOT exact.", "quantifier": "all first and last values (doubles) and sizes up to 2^47 with a range neither too small nor too large, all coordinates, flipped or not", "why_tests_cant": "Rounding errors depend on every bit of the bounds and of the coordinate: a sample does not meet the doubles next to a coordinate or half-way between two, nor the sizes for which the last value falls short.", "anchors": ["src/pyinterp/core/include/pyinterp/detail/axis/container.hpp: AbstractRegular, Regular<double>::find_index, coordinate_value, flip", "src/pyinterp/core/include/pyinterp/detail/axis.hpp: find_indexes, is_evenly_spaced", "src/pyinterp/core/include/pyinterp/axis.hpp: getstate, setstate"]}
{"id": "C123", "title": "Linear and bilinear interpolation with doubles", "statement": "With the rounding of double arithmetic, bilinear interpolation of a grid on regular axes gives exactly the value of the array at every point of the grid and, between, the exact bilinear interpolation of the four values of the cell up to 2^-47 times the greatest value; a point outside gives NaN or the error asked for. The linear interpolation along the Z and U axes is exact at both ends and right up to 2^-48 times the greatest value between. interpolate1d with the linear method is exact at the first point of each interval and right up to 2^-48 times the greatest value, but is NOT exact at the last point.", "quantifier": "all grids of doubles on regular axes (any bounds, sizes, directions), all points; all pairs of points for the linear interpolations", "why_tests_cant": "Some twenty roundings enter each value; the worst combination of coordinates and values is not met by a sample.", "anchors": ["src/pyinterp/core/include/pyinterp/detail/math/bivariate.hpp: Bilinear::evaluate", "src/pyinterp/core/include/pyinterp/detail/math/linear.hpp: linear", "src/pyinterp/core/include/pyinterp/detail/interpolation/linear.hpp: Linear::interpolate_", "src/pyinterp/core/include/pyinterp/bivariate.hpp: _bivariate"]}
{"id": "C124", "title": "Descriptive statistics of doubles with rounding", "statement": "With the rounding of every IEEE double operation, for every list of finite doubles (at most 2^53 of them) pushed without weights: count, sum of weights, min and max are exact, min <= mean <= max, the variance is never negative, the mean is within (n+9)*M*2^-53 of the mathematical mean and the sum within n(n+1)*M*2^-53 of the mathematical sum, M bounding the absolute values, and the variance within (8n+86)*M^2*2^-53 of the mathematical variance (n up to 2^50). The variance stays non-negative for every history of weighted values and of merged accumulators (positive weights), and for mixed histories whose weights are at least 1.", "quantifier": "every list of finite doubles, every history of pushes (weighted or not) and merges, every ddof", "why_tests_cant": "rounding errors depend on all the bits of all the values; a negative variance (NaN standard deviation) shows only for particular roundings", "anchors": ["src/pyinterp/core/include/pyinterp/detail/math/descriptive_statistics.hpp: DescriptiveStatistics::operator(), operator+=, variance, mean, sum"]}
{"id": "C125", "title": "Axes of doubles of any kind: irregular, longitudes, circles", "statement": "With the rounding of double arithmetic, on every axis the constructors build (regular or irregular, ascending or descending, longitudes or not): a coordinate between the first and the last one is framed, as doubles and without tolerance, by the two neighbouring coordinates find_indexes returns; on an axis that is not a circle a coordinate outside gives nothing; on a circle no longitude is ever lost, and one beyond the last coordinate is framed by the last and the first; on an irregular axis the nearest index is the nearest up to a relative error 2^-51 on the distance; longitudes that cross the origin once are stored as the same longitudes plus or minus a turn, rounded; a complete circle is recognised when the gap between the last longitude and the first of the next turn is at most the mean step (irregular, ascending) or when the step times the size is 360 up to epsilon (regular), up to 2^-37 degrees; bilinear interpolation on such axes is exact at the points of the grid and right up to 2^-47 times the greatest value between. It is NOT always exactly the nearest, and at longitudes that round to the end of a turn the bilinear interpolation leaves the range of the values.", "quantifier": "all lists of doubles and all ranges the constructors accept, all coordinates, all arrays of doubles", "why_tests_cant": "The failures are at the doubles next to the end of a turn, half-way between two coordinates or next to a coordinate; no sample meets them for every axis.", "anchors": ["src/pyinterp/core/include/pyinterp/detail/axis.hpp: find_indexes, find_nearest_index, normalize_coordinate, compute_properties, normalize_longitude, initialize_from_values", "src/pyinterp/core/include/pyinterp/detail/axis/container.hpp: Irregular, AbstractRegular, Regular", "src/pyinterp/core/include/pyinterp/bivariate.hpp: _bivariate"]}
{"id": "C126", "title": "Grids of three and four dimensions in double arithmetic", "statement": "With the rounding of double arithmetic, on grids of three or four dimensions with axes of any kind the constructors build: between the bounds of the axes the interpolation (bilinear in x and y, linear or nearest along z and u) is the exact one on the cell that holds the point, up to 2^-46 (three dimensions) or 2^-45 (four) times the greatest value, the plane chosen by the nearest method being the nearest up to 2^-49 of the distance; at a point of the grid the result is exactly the value of the array; beyond a bound the result is NaN, or an exception if bounds_error is set; with the linear method the result is NaN exactly if one of the values of the cell is NaN.", "quantifier": "all grids on axes built by the constructors, all arrays of doubles (NaN included), all points of doubles, both methods along z and u, both values of bounds_error", "why_tests_cant": "Rounding errors depend on every value; a bound on them for all grids and points is a theorem, and the points where a comparison of rounded numbers takes the other branch are rare.", "anchors": ["src/pyinterp/core/include/pyinterp/trivariate.hpp: _trivariate", "src/pyinterp/core/include/pyinterp/quadrivariate.hpp: _quadrivariate", "src/pyinterp/core/include/pyinterp/detail/math/trivariate.hpp: trivariate", "src/pyinterp/core/include/pyinterp/detail/math/linear.hpp: linear", "src/pyinterp/core/include/pyinterp/detail/math/nearest.hpp: nearest"]}
{"id": "C127", "title": "Streaming histograms in double arithmetic", "statement": "With the rounding of double arithmetic, whatever the calls (pushes of doubles with the weight 1, merges of histograms, changes of the maximum number of bins, clears): the calls never fail nor read outside the bins, count(), sum_of_weights() and min() are exact (max() when a sample is positive), there are at most the requested number of bins, the values of the bins leave the range of the samples by at most n M 2^-49, mean() is the mean of the samples up to n M 2^-48; for every q in [0, 1], quantile(q) exists, lies in the range of the samples up to (n + 2) M 2^-49 and is, up to M 2^-48, the value at the weight n q (up to its rounding) of the broken line through the middles of the bins; quantile(0) is the smallest sample exactly. False with other weights: quantile may read outside the bins. False exactly: the bins may leave the range of the samples, and may not be in increasing order.", "quantifier": "all histories of calls, all doubles of magnitude at most M (2^-1000 <= M <= 2^900), up to 2^48 samples, all quantiles in [0, 1]", "why_tests_cant": "Every merge of two bins rounds, the errors add up over the history, and the search of the quantile stops inside the bins only if its subtractions do not round upwards; the failing combinations are rare.", "anchors": ["src/pyinterp/core/include/pyinterp/detail/math/streaming_histogram.hpp: StreamingHistogram::operator(), operator+=, resize, clear, quantile, mean, update_bins, trim", "src/pyinterp/core/include/pyinterp/streaming_histogram.hpp: push"]}
{"id": "C128", "title": "An object added to itself", "statement": "a += a on DescriptiveStatistics, Binning1D/2D, StreamingHistogram and Histogram2D (and a + a of the Python grids, whose result shares the object of a) gives what a += b gives for another object b of the same content; += changes no other object.", "quantifier": "all contents of the cells, all sizes, both aliasing patterns (two objects, the same object)", "why_tests_cant": "The statements read the right operand after they have modified the left one: whether that is visible depends on the content of every cell; undefined behaviour may give the expected result in a test.", "anchors": ["src/pyinterp/core/include/pyinterp/detail/math/descriptive_statistics.hpp: operator+=", "src/pyinterp/core/include/pyinterp/detail/math/streaming_histogram.hpp: operator+=, update_bins", "src/pyinterp/core/include/pyinterp/binning.hpp: operator+=", "src/pyinterp/core/include/pyinterp/histogram2d.hpp: operator+=", "src/pyinterp/histogram2d.py: __add__"]}
{"id": "C129", "title": "Arrays of bins of the histograms", "statement": "StreamingHistogram.bins() and Histogram2D.histograms() return an array whose last dimension is the largest number of bins; the row of each histogram holds its bins in order followed by (NaN, 0); no element is left uninitialised, nothing is written outside the array, and the bins and the sum of the weights of each histogram can be read back from its row.", "quantifier": "every shape, every content of the histograms (empty ones included)", "why_tests_cant": "The offsets depend on the sizes of all the histograms; an error of the padding shows only for some combinations of sizes, and reads of uninitialised memory may look right.", "anchors": ["src/pyinterp/core/include/pyinterp/streaming_histogram.hpp: bins", "src/pyinterp/core/include/pyinterp/histogram2d.hpp: histograms"]}
{"id": "C130", "title": "The Python class geodetic.RTree: names, default arguments and copies", "statement": "pyinterp.geodetic.RTree accepts exactly the documented names of window functions and radial basis functions with the arguments that they take, raises an exception for everything else, uses the documented function, and uses the documented default when an argument is not given (k=9, p=2, within=True, no radius, blackman, multiquadric, arg=1 for lanczos and 0 for parzen); a copy of a tree behaves like the tree.", "quantifier": "every text given as a name, every combination of given and omitted arguments, every tree, every array of points, every radius", "why_tests_cant": "The tests use a few names with explicit arguments; a default that is checked in one place and not passed to another gives NaN only for one name without argument, and the copy is only compared by its content.", "anchors": ["src/pyinterp/geodetic/__init__.py: RTree", "src/pyinterp/interface.py: _core_window_function, _core_radial_basis_function", "src/pyinterp/core/module/geodetic.cpp: init_geodetic_rtree"]}
{"id": "C131", "title": "Which functions take which grids", "statement": "For every class of grid, bivariate, trivariate, quadrivariate, bicubic (and the spline models) and fill.loess called from Python reach the function of the core compiled for exactly this class when the function is defined for its number of dimensions and type of values, and raise an exception otherwise; every grid that can be made can be interpolated.", "quantifier": "every class of grid (types of values, numbers of dimensions, with or without time axis), every function, every text given as a fitting model", "why_tests_cant": "The name of the function is computed by a regular expression from the name of the class and must agree with a name computed in C++ by another rule; the tests use a few of the combinations.", "anchors": ["src/pyinterp/interface.py: _core_function", "src/pyinterp/interpolator/bicubic.py: bicubic", "src/pyinterp/core/include/pyinterp/bivariate.hpp: implement_bivariate", "src/pyinterp/core/module/grid.cpp: init_grid", "src/pyinterp/core/module/bicubic.cpp: init_bicubic", "src/pyinterp/core/module/fill.cpp: init_fill"]}
