# Formal model of CNES/pangeo-pyinterp (Lean 4)

## 1. Layout

* `lean/Verif/Model/*.lean` – functions transcribed from `/repo`, one Lean definition per C++ or
  Python function; each definition cites its file and lines and states its simplifications.
* `lean/Verif/Spec/*.lean` – small specifications, written without the helpers of the model.
* `lean/Verif/Lemmas/*.lean` – helper lemmas.
* `lean/Verif/Props/*.lean` – the property theorems `Cnn_*`. `example`s beside them show that a
  non-trivial case meets their hypotheses. Suffixes: `_partial` = the theorem covers a part of the
  property (the comment says which); `_false` = the code violates the property, the theorem proves
  the violation (with a witness that exists in the real program).
* `properties.jsonl` (English), `MANIFEST.json` (status and theorem names), `seeded/LOG.jsonl`
  (mutants of the model and the theorems that rejected them).

## 2. Trusted base

* Lean 4.33.0's kernel. Every theorem depends on a subset of `propext`, `Classical.choice`,
  `Quot.sound`; no axiom is added, no compiled evaluation is used (`decide +kernel` only runs the kernel).
* The transcription: that the definitions of `Model/` say what the cited lines do. It was done by hand;
  `seeded/LOG.jsonl` shows that the theorems notice realistic edits of these definitions.
* Contracts of code outside the repository, always visible as an explicit hypothesis or argument:
  * Boost.Geometry R-tree: `Spec.KNearest` (the `k` nearest values, sorted), box queries, envelopes and
    `covered_by`, Cartesian distance; areas and geographic distances are arbitrary functions.
  * Eigen: `Spec.Solver` (a solver of linear systems solves the systems whose matrix is invertible),
    element-wise expressions, packets as an explicit parameter where the result depends on them.
  * C++ standard library: `std::lower_bound`, `std::sort`, `std::fmod`, `std::remquo`, `std::thread` with the
    usual semantics; precondition violations (unsorted ranges, reads out of range, division by zero,
    oversized shifts, overflow of a cast) are the outcome `Err.ub`, distinct from the exceptions `Err.exn`.
  * numpy/pybind11: conversion and shape of the arguments.

### Numbers

`int64_t` is `Int` (no overflow) unless a theorem is about bits (`BitVec 64`, geohash) or about an
overflow; `double`/`float` are an arbitrary linearly ordered field (the real numbers when a
transcendental function is used); NaN is `none` when it matters. **Rounding is not modelled**, except in the
doubles layer (Model/Double*.lean, C120 and later: binary64 rounding to the nearest of every operation, as a function on
rationals; no overflow, NaN, infinity, signed zero or fused operation): the
other theorems are about the algorithms in exact arithmetic. Where exact and floating point arithmetic
qualitatively differ (tolerances, comparison with epsilon, infinite values) the comment of the definition says so.

### Concurrency

`Model/Thread.lean` models `dispatch`/`parallel_for`: slices, and all the interleavings of the writes of the
workers; `GaussSeidel` models one interleaving of the cell updates per pass. Failure to create a thread
and the race on the shared `exception_ptr` are outside the model (noted as findings).

## 3. What is modelled

| source | model |
|---|---|
| detail/math.hpp, detail/math/trigonometry.hpp | Math, Trig |
| detail/axis/container.hpp, detail/axis.hpp, axis.hpp, temporal_axis.hpp (as Axis of integers) | AxisContainer, Axis |
| dateutils.hpp/.cpp | Dateutils |
| period.hpp, period.py | Period |
| geohash int64/string/base32, geohash.py | Geohash |
| detail/thread.hpp | Thread |
| detail/math/streaming_histogram.hpp, streaming_histogram.hpp | StreamingHistogram |
| detail/math/descriptive_statistics.hpp, descriptive_statistics.hpp | Statistics, Reduction |
| binning.hpp, detail/math/binning.hpp (the area of Boost.Geometry on a spheroid is a parameter), histogram2d.hpp | Binning |
| detail/interpolation/{interpolator_1d, linear, polynomial, cspline, cspline_periodic, akima, akima_periodic, steffen}.hpp | Interp1D, CSplinePeriodic |
| detail/math/{bivariate, linear, trivariate…}.hpp, bivariate/trivariate/quadrivariate.hpp | Variate |
| interpolate1d.hpp | Interpolate1D |
| fill.hpp, detail/gauss_seidel, detail/math/loess…, fill.py | GaussSeidel, Loess, FillLine |
| detail/math/window_functions.hpp, interface.py | WindowFunctions, Interface |
| detail/geometry/rtree.hpp, rtree.hpp, rtree.py | RTree, Rbf |
| detail/math/{radial_basis_functions, kriging}.hpp | Rbf |
| geodetic/{spheroid, coordinates, system}.hpp | Geodetic |
| detail/interpolation/{interpolator_2d, bilinear, bicubic, factory_2d}.hpp, detail/math/{spline2d, bicubic}.hpp | Bicubic |
| frame.hpp, detail/math/frame.hpp, module/bicubic.cpp, interpolator/bicubic.py | Frame |
| detail/isviewstream.hpp, (un)marshal and pickling of streaming_histogram.hpp, histogram2d.hpp, detail/math/streaming_histogram.hpp | Marshal |
| detail/broadcast.hpp, Binning1D::push on arrays | Shapes |
| orbit.py (passes, pass numbers, equator, Swath.mask, insert_central_pixel) | Orbit |
| geodetic/swath.hpp, detail/math/orbit.hpp | Swath |
| orbit.py: interpolate | OrbitInterpolate |
| detail/geometry/crossover.hpp, lib/geodetic/crossover.cpp | Crossover |
| geodetic/{point,line_string,polygon,multipolygon,box}.hpp, lib/geodetic/{line_string,polygon,multipolygon,box}.cpp, arrays of geodetic/algorithm.hpp | Geometry |
| grid.py, backends/xarray.py (grids, coordinates, RegularGridInterpolator), cf.py | GridPy |
| temporal_axis.hpp, DType (dateutils.hpp), axis.cpp (flip, ==) | TemporalAxis |
| datetime64_to_string (dateutils.hpp) | DateText |
| geodetic/rtree.hpp, lib/geodetic/rtree.cpp | GeoTree |
| lib/geohash/string.cpp (arrays, `where`, polygons), _geohash.py (grid) | GeohashArray |
| geohash/converter.py | GeohashConvert |
| binning.py, histogram2d.py (push_delayed), statistics/__init__.py (dask) | Delayed |
| binning.py (variable) | Variable |
| period.py | PeriodPy |
| fill.py (gauss_seidel, vector, matrix) | FillPy |
| module/dateutils.cpp (arrays, machine integers) | DateArray |
| geodetic/coordinates.hpp (arrays), normalize_longitudes (module/geodetic.cpp, geodetic/__init__.py) | CoordArray |
| src/pyinterp/geodetic/__init__.py (class RTree) | GeoTreePy |
| src/pyinterp/interface.py (`_core_function`), interpolator/*.py, fill.py (calls of the core), names registered in module/*.cpp | Dispatch |
| src/pyinterp/rtree.py (class RTree), module/rtree.cpp (`__copy__`, pickle) | RTreePy |
| module/axis.cpp (flip, `__copy__`, `==`, increment) | AxisPy |
| binning.hpp (Binning1D: range, pickle), module/binning.cpp (`__copy__`) | Binning1D |
| statistics/*.py (copy, +=, +), binning.py, histogram2d.py (+) | PyObjects |
| rounding of binary64 (IEEE 754; not part of the repository): + - * / and std::remainder, no overflow, NaN, signed zero or fused operation | Double |
| detail/math.hpp (remainder, normalize_angle), geohash/int64.cpp (encode, decode) with the rounding of each operation | DoubleCode |
| detail/axis/container.hpp (Regular), detail/axis.hpp (find_indexes, is_evenly_spaced), axis.hpp (pickle) with the rounding of each operation; no angles, no irregular axes | DoubleAxis |
| detail/math/bivariate.hpp (Bilinear), detail/math/linear.hpp, detail/interpolation/linear.hpp, bivariate.hpp (`_bivariate`) with the rounding of each operation | DoubleInterp |
| detail/math/descriptive_statistics.hpp (push, merge, variance) with the rounding of each operation | DoubleStats |
| detail/axis.hpp, detail/axis/container.hpp (irregular, angles), bivariate.hpp with the rounding of each operation | DoubleCircle |
| detail/math/trivariate.hpp, linear.hpp, nearest.hpp, trivariate.hpp, quadrivariate.hpp with the rounding of each operation | DoubleVariate |
| detail/math/streaming_histogram.hpp with the rounding of each operation | DoubleHistogram |
| detail/math/descriptive_statistics.hpp, streaming_histogram.hpp, binning.hpp, histogram2d.hpp (+= on a memory of objects) | SelfMerge |
| streaming_histogram.hpp (bins), histogram2d.hpp (histograms) | BinArrays |

## 4. Properties

For each property: what is modelled and how it is proved (plan), and the result.

| id | title | model and proof | status | result |
|---|---|---|---|---|
| C01 | Angle normalisation | remainder/normalize_angle on Int and on a floor field; algebra | proved | real (ordered field) and integer versions |
| C02 | Axis construction accepts exactly monotone values | axes over a floor field or Int (irregular, regular, integer regular containers, pickled states); order induction, floor arithmetic | proved | for every way of building an axis |
| C03 | Nearest index on an irregular axis | axes over a floor field or Int (irregular, regular, integer regular containers, pickled states); order induction, floor arithmetic | proved | non-angle axes |
| C04 | Nearest index on a regular real axis | axes over a floor field or Int (irregular, regular, integer regular containers, pickled states); order induction, floor arithmetic | proved | up to half a step outside the axis the end index is returned; statement adapted |
| C05 | Nearest index on a regular integer axis | axes over a floor field or Int (irregular, regular, integer regular containers, pickled states); order induction, floor arithmetic | partial | true for ascending-built axes; false (witness) for descending regular integral axes |
| C06 | Bracketing indexes | axes over a floor field or Int (irregular, regular, integer regular containers, pickled states); order induction, floor arithmetic | proved | floating point axes of at least 2 coordinates; integral axes as in C05 |
| C07 | Window of indexes | axes over a floor field or Int (irregular, regular, integer regular containers, pickled states); order induction, floor arithmetic | partial | ascending axes; false on descending axes and for sym windows wider than the axis (witnesses) |
| C08 | Flipping an axis | axes over a floor field or Int (irregular, regular, integer regular containers, pickled states); order induction, floor arithmetic | proved |  |
| C09 | Axis pickling | axes over a floor field or Int (irregular, regular, integer regular containers, pickled states); order induction, floor arithmetic | partial | identity for non-angle or full-circle axes of size at least 2; witnesses where it fails |
| C10 | Bounds checking of axis access | axes over a floor field or Int (irregular, regular, integer regular containers, pickled states); order induction, floor arithmetic | proved |  |
| C11 | Calendar conversion round trip | dateutils on Int; era decomposition with omega, induction over days | proved | for units of seconds, int (32-bit) overflow is possible for years beyond 2^31; excluded by the range theorem |
| C12 | Clock decomposition | dateutils on Int; era decomposition with omega, induction over days | proved |  |
| C13 | Weekday and ISO calendar | dateutils on Int; era decomposition with omega, induction over days | proved |  |
| C14 | Day of year | dateutils on Int; era decomposition with omega, induction over days | proved |  |
| C15 | Unit conversion is exact or refused | dateutils on Int; era decomposition with omega, induction over days | proved |  |
| C16 | Period relations | periods and period lists over Int; two-pointer invariants by induction | proved | int64 modelled by Int (no overflow) |
| C17 | Period intersection and union | periods and period lists over Int; two-pointer invariants by induction | proved | merge of adjacent periods is null (stated as such) |
| C18 | PeriodList merge keeps the union | periods and period lists over Int; two-pointer invariants by induction | proved |  |
| C19 | belong_to_a_period is membership | periods and period lists over Int; two-pointer invariants by induction | proved | the functional claim holds whatever is stored behind the last period; the read itself is undefined behaviour in C++ (witness) |
| C20 | cross_a_period | periods and period lists over Int; two-pointer invariants by induction | proved | non-empty dates; an empty array of dates is undefined behaviour (witness) |
| C21 | join_adjacent_periods | periods and period lists over Int; two-pointer invariants by induction | proved |  |
| C22 | PeriodList within / intersection / filter | periods and period lists over Int; two-pointer invariants by induction | proved |  |
| C23 | Geohash bit interleaving | geohash on BitVec 64 and digit lists; bit extensionality, floor arithmetic | proved | All words; the two encoders agree on every point of [-180,180]x[-90,90]; they differ outside, witness given. |
| C24 | Geohash cell contains the point | geohash on BitVec 64 and digit lists; bit extensionality, floor arithmetic | partial | Proved for 1..62 bits, in exact arithmetic; C24_false_at_64_bits proves the property false at 63 and 64 bits (decoding raises on the last column), which is a defect of the code. |
| C25 | Geohash cells nest | geohash on BitVec 64 and digit lists; bit extensionality, floor arithmetic | proved | Prefix for 1..64 bits; boxes for 1..62 bits (at 63, 64 bits a box may raise, see C24). |
| C26 | Geohash base32 text round trip | geohash on BitVec 64 and digit lists; bit extensionality, floor arithmetic | proved |  |
| C27 | Geohash neighbours | geohash on BitVec 64 and digit lists; bit extensionality, floor arithmetic | partial | BMI2: every cell, except the neighbours beyond a pole; both implementations: every cell that does not touch the border; C27_border gives the border witnesses (undefined behaviour, itself as neighbour, opposite pole). |
| C28 | Geohash zoom in / zoom out | geohash on BitVec 64 and digit lists; bit extensionality, floor arithmetic | proved | C28_short_code_overflow: codes shorter than the item size make zoom_in write past its buffer. |
| C29 | Work splitting between threads | dispatch slices and all interleavings of workers; disjoint writes commute | proved | Every interleaving of the element computations; failure to create a thread is not modelled; hardware_concurrency()==0 divides by zero; two failing slices race on the shared exception variable. |
| C30 | Streaming histogram bookkeeping | streaming histogram over a field; invariants over all histories of operations | proved | Every history of push/merge/resize/clear with positive weights, bin count at least 1 and /values/ below half of the largest number; C30_zero_bins and C30_huge_values are the (undefined) boundary cases. Exact arithmetic. |
| C31 | Streaming histogram merge | streaming histogram over a field; invariants over all histories of operations | proved |  |
| C32 | Streaming histogram extremes | streaming histogram over a field; invariants over all histories of operations | partial | min() proved for unit weights; max() is wrong for non-positive samples (proved false), and both are extremes of weight*value (witness). |
| C33 | Streaming histogram quantile | streaming histogram over a field; invariants over all histories of operations | partial | Proved for unit weights; with weights proved when the weighted extremes frame the bins, false otherwise (witness). |
| C34 | Descriptive statistics are exact | Welford updates, merges, mixed-radix reductions; algebraic identities, induction over samples | proved | Exact arithmetic. With weights min/max are extremes of weight*value, as the code computes them; C34_weighted_extremes_false is the witness that they are not extremes of the values. |
| C35 | Descriptive statistics merge | Welford updates, merges, mixed-radix reductions; algebraic identities, induction over samples | partial | Merging non-empty chunks is exact. With an empty side the property is false for min/max (witness) and two empty sides give NaN. |
| C36 | Reduction along axes | Welford updates, merges, mixed-radix reductions; algebraic identities, induction over samples | partial | Proved for every shape, set of axes and data when the strides are those of a freshly allocated C array. False for C-contiguous arrays whose length-1 dimensions have other strides (x[None], x.T): witnesses in C36_relaxed_strides_false. |
| C37 | Linear binning weights | binning and 2-D histograms; fold induction | partial | Weights and conservation of weight, sum and mean position with Cartesian areas, on axes that are not angles and on longitudes in any turn; shares between 0 and 1 for the areas of any spheroid (Boost's geographic areas are a parameter). Refuted across the 0/360 meridian, on the last longitude of a decreasing axis, and for cells with an area below 1e-12. |
| C38 | Nearest binning counts each sample once | binning and 2-D histograms; fold induction | partial | Proved except "ignores outside samples", refuted (they go to border bins), and pickling with a spheroid (undefined behaviour in the code). |
| C39 | Histogram2D counts | binning and 2-D histograms; fold induction | proved | C39_pickle: axes surviving pickling (C08), cells below 2 GiB. |
| C40 | 1-D interpolator search | interpolators over an ordered field, every history of calls; recurrences of the Thomas algorithm | proved | strictly increasing abscissas, at least two of them |
| C41 | Linear interpolation | interpolators over an ordered field, every history of calls; recurrences of the Thomas algorithm | proved | exact arithmetic in any ordered field |
| C42 | Steffen interpolation | interpolators over an ordered field, every history of calls; recurrences of the Thomas algorithm | proved | for every history of calls on the object |
| C43 | Cubic spline interpolation | interpolators over an ordered field, every history of calls; recurrences of the Thomas algorithm | proved | for every history of calls on the object; the pivots of the Thomas algorithm never vanish; the natural spline is proved unique (C74_spline_unique), so C43_value characterises the result |
| C44 | Akima interpolation | interpolators over an ordered field, every history of calls; recurrences of the Thomas algorithm | partial | False of the code: the nodes are all reproduced if and only if the data are on a straight line (interpolate_ reads m_[i0] instead of m_[i0 + 2]). Proved: first node, straight lines. |
| C45 | Polynomial interpolation | interpolators over an ordered field, every history of calls; recurrences of the Thomas algorithm | partial | False of the code: the divided differences are divided by the widths of adjacent points; with three points the last node is reproduced iff the points are on a line. Proved: the two first nodes, and straight lines when Eigen uses one packet. Polynomial::derivative (uninitialised vector) is not modelled. |
| C46 | Bilinear and bivariate cell interpolation | cell and grid interpolation, windows of 1-D interpolation; convexity and axis theorems | proved | Cell interpolators over any ordered field; boost::geometry distances are arbitrary functions. detail/interpolation/bilinear.hpp is a separate class, see C74. |
| C47 | Bivariate grid interpolation | cell and grid interpolation, windows of 1-D interpolation; convexity and axis theorems | partial | False at the seam of a circular axis for bilinear (witness), at the smallest node of a decreasing angular axis (witness) and for angular y axes (witness); proved everywhere else. |
| C48 | Tri/quadrivariate interpolation | cell and grid interpolation, windows of 1-D interpolation; convexity and axis theorems | partial | Same restrictions as C47 on the x and y axes; nearest on a temporal axis squares differences in int64 and overflows (witness). |
| C49 | 1-D windowed interpolation | cell and grid interpolation, windows of 1-D interpolation; convexity and axis theorems | partial | Windows, one value per coordinate, NaN outside, values: proved. The part about bounds_error is false in the code (C49_bounds_error_false: the flag has no effect); longitudes outside of the axis turn and decreasing axes give NaN (witnesses). c_spline_periodic depends on the other coordinates (C65_history). |
| C50 | Gauss-Seidel filling | Gauss-Seidel sweeps under all schedules, loess, line filling, window functions; convexity, commutation | partial | Every interleaving of the workers of every pass gives the same grid, no data race, defined cells unchanged, filled values defined and in the range of the data (zonal-average guess), convergence for 0 < relaxation < 2 (energy argument), meaning of the residual. False parts proved: one-row non circular grid reads out of bounds; with the zero guess the values leave the data range; with relaxation 2 there may be no convergence. Exact arithmetic; the number of iterations needed is not made explicit in the statement. |
| C51 | Loess filling | Gauss-Seidel sweeps under all schedules, loess, line filling, window functions; convexity, commutation | partial | All parts proved for 2-D, 3-D, 4-D grids, every schedule. Restrictions: axes with at least two values unless x is an angle (otherwise remainder modulo 0, C51_single_x_false). False with respect to the documentation: window counted in axis units and not in points (C51_step_false), decreasing angular axis (C51_descending_angle_false). |
| C52 | Line filling | Gauss-Seidel sweeps under all schedules, loess, line filling, window functions; convexity, commutation | partial | Exact arithmetic, no integer overflow. The full statement is false in two cases, proved: a matrix row holding one single defined value may lose it (C52_matrix_false); INT64_MAX as fill value fills nothing (C52_max_int_false). |
| C53 | Window functions have compact support | Gauss-Seidel sweeps under all schedules, loess, line filling, window functions; convexity, commutation | partial | Weights at and beyond the radius, between 0 and 1, symmetric shape, for the windows that satisfy it. parzen and parzen_swot are negative beyond the radius, flat_top is negative, nuttall(0) is 0.9893589, lanczos without argument always gives 0 or NaN: proved as _false theorems. |
| C54 | Inverse distance weighting on the mesh | mesh queries over any neighbour list meeting the contract of the index; fold invariants | partial | For every answer of the spatial index satisfying KNearest. The documented meaning of within fails with a radius (C54_within_false): the test is made before the points beyond the radius are dropped. |
| C55 | Window function interpolation on the mesh | mesh queries over any neighbour list meeting the contract of the index; fold invariants | partial | Weighted mean of the neighbours within the radius for non-negative windows; flat_top, the absence of a radius with coincident points and lanczos without argument are counterexamples. |
| C56 | Shape checks | shape checks and binary formats; induction over the buffers | partial | The checks accept equal shapes only, for any number of arrays. Binning1D.push makes no check: extra values are ignored, missing values are read outside of the array (negations proved). |
| C57 | Serialised buffers | shape checks and binary formats; induction over the buffers | partial | Proved when the announced sizes are below 2^63 and the items below 2 GiB; false otherwise (out of range views, pointer moved backwards); the shape of a pickled StreamingHistogram is not checked. |
| C58 | Axis coordinates are the given values | axis tolerance, circular nearest, safe casts | proved | tolerance 0 <= eps < 1 for floating point axes |
| C59 | Nearest index on a circular axis | axis tolerance, circular nearest, safe casts | partial | proved for increasing axes spanning at most 360 degrees; false for decreasing axes (witness): the code takes the last index for the largest coordinate |
| C60 | Decoding a geohash then encoding it is the identity | axis tolerance, circular nearest, safe casts | proved |  |
| C61 | Geohash cells of a region | complements of C17-C22, C38, C40-C45 | partial | The exact content of the result is proved; the covering property is false (witness). |
| C62 | Streaming histogram accuracy | complements of C17-C22, C38, C40-C45 | proved |  |
| C63 | Python a + b on binnings and statistics | complements of C17-C22, C38, C40-C45 | partial | a + b returns the merge but modifies a: the expected absence of side effect is refuted. a + a is the merge of a with itself for the statistics and the binnings (C128_binning, C128_statistics_arrays) and has no defined behaviour for Histogram2D (C128_histogram2d_false). |
| C64 | Interpolator objects have no memory | complements of C17-C22, C38, C40-C45 | proved | the packets of Eigen are a parameter of the polynomial; the periodic cubic spline is C65 |
| C65 | Periodic cubic spline | complements of C17-C22, C38, C40-C45 | proved | the last pivot of the cyclic LDL^T factorisation is shown positive for every mesh; the periodic spline is proved unique (C74_periodic_unique); C65_history is the witness of the history dependence |
| C66 | Nearest neighbour queries of the mesh | mesh contents, bounds, pickling, altitude | proved | For every answer of the spatial index satisfying KNearest (contract of Boost). |
| C67 | Contents of the mesh | mesh contents, bounds, pickling, altitude | partial | Proved for all methods but the kriging, which ignores the altitude of the query (C67_kriging_false). |
| C68 | Bounds of the mesh | mesh contents, bounds, pickling, altitude | partial | The box contains the observations and its lower corner is tight; the upper corner is tight only if a coordinate is positive (C68_smallest_false). |
| C69 | Pickling a mesh | mesh contents, bounds, pickling, altitude | partial | Round trip for geodetic meshes; a mesh built with ecef=True cannot be restored. |
| C70 | Trigonometry in degrees | trigonometry, geodetic conversions, spheroid over the reals; calculus and algebra. Error of C72: the series of the first approximation written with explicit remainders (every quantity is bounded times a power of e2), then the correction by the mean value inequality along the meridian | proved | Real arithmetic. |
| C71 | Geodetic to Cartesian coordinates | trigonometry, geodetic conversions, spheroid over the reals; calculus and algebra. Error of C72: the series of the first approximation written with explicit remainders (every quantity is bounded times a power of e2), then the correction by the mean value inequality along the meridian | proved | Real arithmetic. |
| C72 | Cartesian to geodetic coordinates | trigonometry, geodetic conversions, spheroid over the reals; calculus and algebra. Error of C72: the series of the first approximation written with explicit remainders (every quantity is bounded times a power of e2), then the correction by the mean value inequality along the meridian | proved | Real arithmetic. First approximation: remainder of the series at most 3 e2^3; correction: mean value inequality on the meridian. |
| C73 | Derived quantities of a spheroid | trigonometry, geodetic conversions, spheroid over the reals; calculus and algebra. Error of C72: the series of the first approximation written with explicit remainders (every quantity is bounded times a power of e2), then the correction by the mean value inequality along the meridian | partial | The authalic radius gives the area of the spheroid (integral of a surface of revolution) for every flattened spheroid. False for a sphere: NaN (C73_authalic_false). |
| C74 | Bicubic and spline interpolation of a window | 2-D cell interpolators of detail/interpolation; polynomial identities | proved | akima and polynomial do not reproduce the nodes (C44_false, C45_false), so C74_nodes does not list them. The NaN that a 1-D interpolation of a column outside of the window would give is a separate outcome of the model. |
| C75 | Radial basis functions go through the observations | radial functions and kriging over the reals for any correct solver; strictly positive definite kernels by power series and mixtures of Gaussians | proved | Cubic and thin_plate: C75_nodes under invertibility of the system. Micchelli's theorem is proved for the other four (Lemmas/Kernel*.lean). Negations: single neighbour, thin_plate at distance one. |
| C76 | Kriging is exact at the observations | radial functions and kriging over the reals for any correct solver; strictly positive definite kernels by power series and mixtures of Gaussians | proved | Spherical covariance: exactness under invertibility of the system only (C76_exact). Negation: constant fields are not reproduced. |
| C77 | Covariance functions are covariances | radial functions and kriging over the reals for any correct solver; strictly positive definite kernels by power series and mixtures of Gaussians | partial | The linear covariance fails every clause and three documented formulas differ from the code; the negations are proved. |
| C78 | Names and data types of the Python interface | names as lists of characters, tables of the enumerations | partial | Two documented covariance names raise; 32 and 64-bit integers lose precision; both negations are proved. |
| C79 | Windows of pyinterp.bicubic | windows of grids and the calls of bicubic(): the search of the windows (C06/C07 lemmas), angles brought to one turn, the interpolators of C74; slices of the points (C29) | proved | for windows that fit (WindowFits) on increasing axes; C79_boundary_false shows that the modes expand, wrap and sym give windows with coordinates that do not increase near an end of a plain axis, C79_y_angle_false that an angular y axis is not normalised. A circular x axis must have at least 2*nx coordinates. |
| C80 | Calls of pyinterp.bicubic: threads, 3-D and 4-D grids, arguments | windows of grids and the calls of bicubic(): the search of the windows (C06/C07 lemmas), angles brought to one turn, the interpolators of C74; slices of the points (C29) | proved | the number of CPUs is at least 1 (C29_unknown_cpu); the exception thrown is the one of some point, in the code of the last worker that caught one |
| C81 | Absolute pass numbers | orbits: lists of samples over an ordered field, dates as integers, any rounding to the nearest for the quotient; induction over the enumeration, signs of the differences | proved | for any rounding to nearest on 53 bits; below 2^53 and from 1 on, the two findings are outside of this range |
| C82 | Enumeration of passes | orbits: lists of samples over an ordered field, dates as integers, any rounding to the nearest for the quotient; induction over the enumeration, signs of the differences | proved | dates are integers (nanoseconds) without overflow; the generator is modelled by the first k items a caller asks for; C82_epoch_false: a first date equal to the epoch; C82_one_pass_false: division by zero |
| C83 | Samples of a pass | orbits: lists of samples over an ordered field, dates as integers, any rounding to the nearest for the quotient; induction over the enumeration, signs of the differences | proved | pass_time sorted and beginning not after the first sample; the intersection and the distances are parameters |
| C84 | Passes are half-orbits | orbits: lists of samples over an ordered field, dates as integers, any rounding to the nearest for the quotient; induction over the enumeration, signs of the differences | partial | the first pass is a half-orbit only if the first turning point is one of the two first samples (C84_first_pass_false); different consecutive latitudes (C84_plateau_false) |
| C85 | Rearrangement of an orbit | orbits: lists of samples over an ordered field, dates as integers, any rounding to the nearest for the quotient; induction over the enumeration, signs of the differences | partial | the claim holds with exactly one ascent; with two or more the function does nothing (C85_noop_false, C85_start_false) |
| C86 | Crossing of the equator | orbits: lists of samples over an ordered field, dates as integers, any rounding to the nearest for the quotient; induction over the enumeration, signs of the differences | partial | the intersection of the segment and the distances come from functions not modelled here (Linestring, Crossover); the case of the first sample is C86_first_sample_false |
| C87 | Pixels of a swath | swaths over the reals: rotation of Rodrigues, the loop of the pixels, the interpolated orbit through C49 and C72 | proved | in real numbers; the pixels are brought back by ecef_to_lla (C72 for its accuracy). The case of fewer than three points is C87_short_false; the arc has exactly the length asked for when the flight is horizontal (C87_horizontal gives a sufficient condition), C87_chord otherwise |
| C88 | Interpolation of an orbit | swaths over the reals: rotation of Rodrigues, the loop of the pixels, the interpolated orbit through C49 and C72 | partial | the values between the samples are these of C49 and are not characterised further; C88_latitude_false refutes the claim for the latitude on a flattened spheroid: no altitude gives the point computed; the dates of the samples are the coordinates of the axis (C58) |
| C89 | Arrays of calculate_swath: distances, mask, central pixel | swaths over the reals: rotation of Rodrigues, the loop of the pixels, the interpolated orbit through C49 and C72 | proved | equality with the distances of the pixels holds when the two resolutions are equal; the theorems with the suffix _false refute the other cases |
| C90 | Unrolling of two half-orbits | crossovers over an ordered field: the window of one turn cuts neither of the tracks (uniqueness of the representative of a meridian in a window), induction over the loop of the nearest point, lists of outcomes; Boost functions as parameters | proved | exact arithmetic; C90_wide_false shows that the bound on the spans is needed |
| C91 | Crossover of two half-orbits in the plane | crossovers over an ordered field: the window of one turn cuts neither of the tracks (uniqueness of the representative of a meridian in a window), induction over the loop of the nearest point, lists of outcomes; Boost functions as parameters | proved | the intersection of the lines and the geodetic distance (Boost) are parameters; exact arithmetic |
| C92 | List of the crossovers, ellipsoid, errors | crossovers over an ordered field: the window of one turn cuts neither of the tracks (uniqueness of the representative of a meridian in a window), induction over the loop of the nearest point, lists of outcomes; Boost functions as parameters | proved | the functions of Boost are parameters; the theorems with the suffix _false are the corner cases given in the statement |
| C93 | Line strings and functions on arrays of points | geometric objects as lists of points over any type of coordinates, GeoJSON as nested lists; induction over the lists; the loops on arrays through the thread model (C29) | partial | all the clauses are proved for arrays of equal sizes; closest_point on arrays does not compare the sizes (witness C93_closest_sizes_false). The functions of Boost (distance, covered_by, closest_points) are parameters |
| C94 | Polygons, multi-polygons and boxes | geometric objects as lists of points over any type of coordinates, GeoJSON as nested lists; induction over the lists; the loops on arrays through the thread model (C29) | partial | the clauses are proved as stated; the corner cases (empty inner rings, m += m, latitudes of boxes, setters) are false for all inputs, with the witnesses _false |
| C95 | Grids of Python: increasing_axes and pickling | Python grids: axis objects in a heap, references, views of arrays; DataArrays as lists of named dimensions; induction over the loop of the axes, permutations of lists, then C47/C48 at the nodes | partial | C95_increasing supposes distinct axis objects with 'inplace' (witness C95_alias_false) ; pickling is proved for axes of two or more coordinates, angles that are circles and dates not flipped; 'inplace' also reverses the axes of other grids that share them (C95_shared_false); 'copy' of a decreasing regional longitude loses the angle (C95_copy_angle_false) |
| C96 | Grids built from an xarray DataArray have its nodes | Python grids: axis objects in a heap, references, views of arrays; DataArrays as lists of named dimensions; induction over the loop of the axes, permutations of lists, then C47/C48 at the nodes | proved | The axes of the DataArray are those built by core.Axis from its coordinates (tolerance 1e-6) |
| C97 | Interpolation of a DataArray by names | Python grids: axis objects in a heap, references, views of arrays; DataArrays as lists of named dimensions; induction over the loop of the axes, permutations of lists, then C47/C48 at the nodes | partial | C97_node_partial supposes two or more coordinates per axis, longitudes within one turn, no regular decreasing time axis (witness C97_decreasing_time_false) and all values defined; with two different methods along Z and U the result of a 4D grid depends on the order of a Python set (C97_set_order_false) |
| C98 | Temporal axes: units of the dates | dates as integers with a unit, the durations of the units in attoseconds as specification, numpy conversion as a parameter; scaling of the searches of C05/C06; texts as lists of characters, decimal lemmas of the core library, then C11/C12 | partial | numpy's astype is a parameter (floor between fixed units); the searches are proved for units of fixed duration, the unit of the dates at least as long as that of the axis, and axes that are not regular and descending (C05); false for shorter units (C98_truncation_false), for == of axes of different units (C98_eq_false) and for the pickling of grids (C98_grid_pickle_false) |
| C99 | Text of a date | dates as integers with a unit, the durations of the units in attoseconds as specification, numpy conversion as a parameter; scaling of the searches of C05/C06; texts as lists of characters, decimal lemmas of the core library, then C11/C12 | proved | Integers are unbounded; the 32-bit casts are covered by C11_no_int32_overflow; log10 of a power of ten is assumed exact. The year is not padded to four digits. |
| C100 | R-tree on geographic coordinates | contents of the trees in a heap, Boost as a parameter with a contract (k nearest, non-negative distances); the interpolations are reduced to those of C54/C55 by points of a line at the same distances | partial | Boost (index, andoyer distance, envelope) is a parameter; idw and window assume that the index and the tree use the same distance, which is the case of the default spheroid only (finding). Window functions as in C55 (flat_top excluded); radial basis functions assume the system invertible. Copies share the content (C100_copy_false). |
| C101 | geohash.where | arrays of codes as bytes with strides; invariant of the scan of `where` over the visited cells, the mask of a polygon as a filter of the cells of its envelope (C61), element-wise decoding (C60), arithmetic progressions of the centres as axes (C03, C05) | partial | False for a code that fills exactly two cells: only the first cell is in the ranges (C101_pair_false); all other rectangles are proved, and the exact result of any layout (C101_where). |
| C102 | Geohash codes of a polygon | arrays of codes as bytes with strides; invariant of the scan of `where` over the visited cells, the mask of a polygon as a filter of the cells of its envelope (C61), element-wise decoding (C60), arithmetic progressions of the centres as axes (C03, C05) | partial | Envelope and intersection of Boost are parameters. The cells of the last row and column of the envelope are missing (C102_false_missing); an envelope beyond 180 degrees is undefined behaviour (C102_false_dateline). |
| C103 | Encoding and decoding arrays of codes | arrays of codes as bytes with strides; invariant of the scan of `where` over the visited cells, the mask of a polygon as a filter of the cells of its envelope (C61), element-wise decoding (C60), arithmetic progressions of the centres as axes (C03, C05) | proved | Precision 0 and empty elements are undefined behaviour (C103_precision, C103_bad_element). |
| C104 | GeoHash.grid | arrays of codes as bytes with strides; invariant of the scan of `where` over the visited cells, the mask of a polygon as a filter of the cells of its envelope (C61), element-wise decoding (C60), arithmetic progressions of the centres as axes (C03, C05) | partial | The units are exchanged (C104_units_false); the rest is proved for boxes on the Earth. |
| C105 | geohash.to_xarray | arrays of codes as bytes with strides; invariant of the scan of `where` over the visited cells, the mask of a polygon as a filter of the cells of its envelope (C61), element-wise decoding (C60), arithmetic progressions of the centres as axes (C03, C05) | partial | Codes of the full length of the elements, data of one dimension; the units are exchanged (C105_units_false). |
| C106 | push_delayed of the binnings and of Histogram2D | the graph of dask as an arbitrary binary tree of additions over blocks, objects in a heap; induction on the tree with the invariant `accumulators = those of the concatenated samples` (C34, C35, C38, C39, C41) | partial | Proved for every partition and every tree of additions, simple and linear, on the plane and on any spheroid. False (witnesses proved): the type float32, the range of Binning1D and the number of bins of Histogram2D are lost by push_delayed. |
| C107 | Statistics of dask arrays | the graph of dask as an arbitrary binary tree of additions over blocks, objects in a heap; induction on the tree with the invariant `accumulators = those of the concatenated samples` (C34, C35, C38, C39, C41) | partial | Proved when the first axis is reduced and, for the descriptive statistics, when each cell of each block has a defined element. False otherwise (witnesses proved): the blocks are merged although the first axis is kept; a block without defined element gives a minimum 0 or NaN. |
| C108 | variable of the binnings | names as texts; C38 for the cells, then C34 with unit weights | partial | Proved for every sequence of pushes, simple and linear (on the plane and on any spheroid), and for Binning1D with positive weights; the skewness on real numbers. False: variable('clear') is accepted, returns None and erases the statistics. Not modelled: names beginning with an underscore. |
| C109 | Periods of Python with dates of any unit | units of time as strictly increasing sequences of instants (calendar of C11 for the months and years); the conversions of numpy are the adjoint of these sequences (n ≤ tick t ↔ start n ≤ t), which moves the theorems of C16-C22 to instants | partial | Proved for dates of any unit, and for two periods when the units of the second one subdivide those of the first one (is_adjacent, merge, ==, <: same units). False otherwise (witnesses proved): as_resolution to finer units keeps only the beginning of the last unit. |
| C110 | Lists of periods of Python with dates of any unit | units of time as strictly increasing sequences of instants (calendar of C11 for the months and years); the conversions of numpy are the adjoint of these sequences (n ≤ tick t ↔ start n ≤ t), which moves the theorems of C16-C22 to instants | partial | Proved for dates of any unit, durations of constant length, and lists of the same unit. False (witnesses proved): within and intersection do not convert the unit of the period, merge refuses lists of different units. |
| C111 | gauss_seidel of Python | the tasks of the layers as state machines that share the array, interleaved by an arbitrary schedule; the state of a task depends only on the number of its steps; then C50. Convergence of C50: the weighted sum of the squared differences between neighbours decreases by (2 - w)/w times the square of each residual | partial | False part proved: with max_iteration=0 the function reports convergence although nothing was relaxed. Grids with a single column (or a single row when not circular) are outside of the theorems (C50_one_row_false). Exact arithmetic; the steps of a task are the iterations. |
| C112 | vector and matrix of Python | a call gives the array of the caller after it and a result or an exception; C52 for the values | partial | False parts proved: matrix always raises for float32 arrays, after having modified the array of the caller; the default filling value is refused for integers and dates. 2^63-1 as filling value: C52_max_int_false. |
| C113 | Dates of arrays | the functions of the module on lists of 64-bit integers, each machine operation wrapped or undefined as in C++; equality with the mathematical functions of C13-C15 on the range where nothing overflows | partial | Every unit and array, with machine integers. False: a count of seconds beyond the year 2.147e9 (NaT of datetime64[s] is one) overflows 32 bits in every function of the date; NaT of the finer units is taken for a date; timedelta_since_january of any date before 1970 in ps, fs or as overflows 64 bits. |
| C114 | Coordinates of arrays | C29 for the slices, C71 and C72 for the elements | proved | Real arithmetic; the three stores of an iteration are one step. |
| C115 | normalize_longitudes of Python | arrays as values with flags, the selection of the overload by pybind11 as a function of the flags; C01 for the values | partial | False for a writeable array that is not contiguous or not of float64: the second overload normalises a copy that Python drops, and the array is returned unchanged. |
| C116 | The Python RTree object: construction, history, copy and pickle | Model/RTreePy.lean: the Python object is its data type and a core mesh; histories are lists of calls; proof by induction on the history with the theorems of C67. The dispatcher of pybind11 is a stated trusted fact. Shallow copies: a heap of Boost trees with shared pointers. | partial | The claim on the pickle is false of the code: C116_pickle shows that the restored Python mesh is always empty, WGS84 and not ecef, C116_pickle_false characterises the meshes that survive (rests on the behaviour of pybind11, which ignores __setstate__ on an instance that already holds a C++ object; stated in the comment of coreSetstate). The documented default within=False of query is not that of the code (C116_query_default_false). |
| C117 | Equality, copies and flipped copies of axes | Model/AxisPy.lean over the model of the axes; the invariant of the reachable axes (Lemmas/AxisReach.lean) determines every member from the coordinates, so equality of the containers is equality of the axes. | partial | False parts proved: flip(inplace=False) goes through the pickle and loses the nature of a regional longitude axis, and raises for a regular axis of one coordinate; == ignores whether the axis is an angle and distinguishes regular and irregular storage of the same coordinates. |
| C118 | Range, copies and pickling of Binning1D | Model/Binning1D.lean on top of Model/Delayed.lean (Binning1D); the axis round trip of C09 and the shape of the objects reached by pushes; the inherited `__copy__` of pybind11 is modelled as a conversion to the base object. | partial | The pickling is proved for axes of at least two coordinates (circular when they are angles: C09). False: copy.copy of a core.Binning1D is a Binning2D without range; += adds binnings with different ranges. |
| C119 | Statistics and binning objects are independent values | Model/PyObjects.lean: a heap of C++ objects and Python objects that are addresses; Spec/Values.lean: the same programs on independent values. Simulation by the invariant that no two Python objects share an address, by induction on the program; the sharing operations are refuted by a witness for every += that succeeds. | partial | Proved for programs with constructors, copy(), +=, push and clear (C119_values), and for copy() in any program (C119_copy_independent). False for copy.copy and +, which share the C++ object of the left operand: C119_sharing_false. |
| C120 | Geohash codes computed with doubles | Model/Double.lean (rounding to nearest even of binary64 on rationals) and Model/DoubleCode.lean (the lines of the encoders with the rounding of every operation); backward error analysis: the code computed is the exact code of a neighbouring position. Values that cannot be encoded are refuted by witnesses evaluated by the kernel. | partial | Backward error of both encoders with the rounding of binary64; the claim is false for the last double below 90 (latitude) or 180 (longitude, C++ only): witness proved. Overflow, NaN and fused operations are not modelled. |
| C121 | Normalisation of angles computed with doubles | Same layer: monotonicity of the rounding and exactness of std::remainder give the interval; the error bounds of the two rounded operations give the angle. | partial | Closed interval [min, min + 360] and same angle up to rounding; the half-open interval promised in exact arithmetic (C01) is false with doubles: witness proved. |
| C122 | Regular axes of doubles | Model/DoubleAxis.lean (regular container, find_index, find_indexes, flip, pickle, is_evenly_spaced with the rounding of every operation); error analysis in Lemmas/DoubleAxis.lean: coordinates are within 7/32 of a step, the quotient within B*2^-51; exactness of comparisons of doubles through fl-monotonicity. Witnesses evaluated by the kernel for what is false. | partial | Partial because the last value, pickling and double flip are refuted by witnesses. Spacing: at most 2^47 values, first value at most 2^47 steps, range in [2^-900, 2^900]. Angles (circles) and irregular axes: C125. |
| C123 | Linear and bilinear interpolation with doubles | Model/DoubleInterp.lean; forward error analysis of the weights (Weight: computed weight, exact weight, error in last bits) in Lemmas/DoubleInterp.lean; grid theorems combine it with C122. | partial | Partial because interpolate1d is not exact at the second point of an interval (witness). Axes that are angles or irregular: C125. Nearest and IDW with doubles are not covered; overflow is not modelled. |
| C124 | Descriptive statistics of doubles with rounding | Model/DoubleStats.lean (push, weighted push, merge, variance with the rounding of every operation); Lemmas/DoubleStats.lean: the update of the mean stays between the mean and the value (fl_half_le: the rounded half of a rounded difference is not greater than the difference), error of one update; induction on the list or on the history. | partial | Proved for all histories without overflow (the model has no infinity); moments 3 and 4 have no error bound. False for weights below 1 mixed with unweighted values (negative variance: C124_mixed_false), and the mean of weighted values can leave the hull (C124_weighted_mean_false). |
| C125 | Axes of doubles of any kind: irregular, longitudes, circles | Model/DoubleCircle.lean (container, axis and bivariate with the rounding of every operation). Lemmas/DoubleCircle.lean: one interface (Coords: coordinates strictly monotone, what the search gives inside and outside) proved for regular containers from C122 and for irregular ones from the specification of lower_bound; the theorems on axes and grids use only that interface. Witnesses evaluated by the kernel for what is false. | partial | Partial because the nearest is not exact and the interpolation leaves the range of the values at longitudes that round to the end of a turn (witnesses). The grid theorems are for longitudes already normalised (Plain). Regular axes: bounds of Spacing; circles: longitudes below 2^20 degrees, steps above 2^-38 (Moderate). Overflow is not modelled. Longitudes that cross the origin and are closer than the rounding of 360 are refused (C125_unwrap_false). |
| C126 | Grids of three and four dimensions in double arithmetic | Model/DoubleVariate.lean on the axes of C125; Spec/Multilinear.lean is the exact interpolation. One step along an axis from values known up to E (along_err) used once or twice, on the bilinear interpolation of C123; the rounded squares of the distances keep their order up to 2^-49 (sq_dist_le). | proved | Axes: bounds of Spacing for regular ones, neighbours at least 2^-1010 apart (2^-400 along an axis with the nearest method); longitudes already normalised (Plain; see C125 for what is false at the end of a turn). NaN stated in three dimensions. No overflow in the model. |
| C127 | Streaming histograms in double arithmetic | Model/DoubleHistogram.lean (every operation rounded), Spec/HistogramDouble.lean (histories of calls, the broken line of the quantiles). Invariant by induction on the history: weights are positive integers, each merge of two bins adds an error of 16 u M, the number of merges plus the number of bins is at most the number of samples. The search of the quantile is exact because the weight n q is a multiple of a power of two that divides 1/2. Witnesses evaluated by the kernel for what is false. | partial | Proved for every history of pushes of weight 1, merges, resizes and clears. False parts with witnesses: with weights that are not integers quantile reads outside the bins; bins outside the range of the samples; bins that are not sorted. Not modelled: weighted_diff (never set by the API), moments above the first, overflow. |
| C128 | An object added to itself | Model/SelfMerge.lean: the operators as sequences of statements on a memory indexed by addresses, so that the operands may be the same; equality with the operators on values of C30/C34/C37/C39, induction over the loops of bins and cells. | partial | Proved statement by statement for DescriptiveStatistics and Binning1D/2D, whatever the aliasing. False for StreamingHistogram and Histogram2D: a += a inserts in the vector on which it iterates and has no defined behaviour as soon as one cell holds a bin (C128_histogram_false, C128_histogram2d_false, C128_streaming_false). |
| C129 | Arrays of bins of the histograms | Model/BinArrays.lean: the flat uninitialised memory of the NumPy array, with stores outside it undefined; induction over the loops of bins, padding, cells; the 3-dimensional loops are shown to be the flat ones. | proved | The hypothesis shape.prod = number of histograms is the invariant of allocate_accumulators. C129_recover (the bins and the sum of the weights are read back) is stated for bins(); the array of histograms() is the same list of rows. |
| C130 | The Python class geodetic.RTree: names, default arguments and copies | Model/GeoTreePy.lean on Model/GeoTree.lean: names by a table (decide over the names of the finite table, induction-free case analysis on the text), lanczos by an invariant of the loop of the neighbours (total weight 0 or NaN), the rest by composition with C100, C53 and C78. | partial | Accepted names and arguments, documented defaults of the three methods. False: `lanczos` without `arg` gives NaN everywhere (the documented default 1 is checked but not passed to the core); `copy.copy` returns an object of the core class, that refuses the names and whose default window is Hamming, not Blackman. Missing in the values: flat_top and a null standard deviation (as in C53). |
| C131 | Which functions take which grids | Model/Dispatch.lean: names of the classes, the regular expression, the names registered in C++; the domain (20 classes, 6 functions) is finite and entirely computed in the kernel, the texts are general. | partial | The names computed in Python and in C++ agree for every class and function (the domain is finite: all of it is computed in the kernel). False: a grid of 3 or 4 dimensions of 8-bit integers can be made, and every function refuses it. |

## 5. Findings (defects of the code that the model exhibits)

Each is proved by a `_false` theorem or a witness, or (marked †) was seen while reading and is outside the model.

* **Axes.** Descending regular integer axes return wrong indexes (C05); windows on descending axes and symmetric
  windows wider than the axis are wrong (C07); pickling loses the angle flag, the step of flipped integer axes, and refuses
  regular axes of size 1 (C09), which also affects Python `flip(inplace=False)`; nearest on circular descending axes and
  with `bounded=true` is wrong (C59); direction of a two-value longitude axis.
* **Dates, periods.** The year of far dates in seconds overflows a 32-bit integer; `merge` of adjacent
  periods is null; `join_adjacent_periods` does not join adjacent periods with the default epsilon and loses nested
  periods (C61); `belong_to_a_period` reads past the end; `cross_a_period` on empty dates is undefined; `filter` counts the last
  instant while Python `duration()` does not; Python `within`/`intersection` ignore resolution mismatch.
* **Geohash.** 63/64-bit hashes of the last column decode to a box that the constructor refuses (C24); BMI2 and portable
  versions differ outside [-180,180]; neighbours beyond a pole (C27); undefined behaviour on west/south borders in the
  portable version; `bounding_boxes` drops last row/column and thin boxes; `zoom_in` with shorter codes writes past its buffer;
  precision 0 shifts by 64 bits; `Box` does not check the order of latitudes.
* **Threads.** `hardware_concurrency() == 0` divides by zero; two failing workers race on `exception_ptr`†.
* **Streaming histogram.** `max` starts from the smallest positive number (C32); extremes of weight*value; zero bins and
  values whose difference exceeds the largest number are undefined behaviour.
* **Statistics.** Merging with an empty side gives wrong extremes, two empty sides NaN (C35); weighted extremes; zero-weight
  first sample; relaxed strides of length-1 dimensions (C36).
* **Binning.** Samples outside the axes go to the border bins; linear binning across the 0/360 meridian (total weight
  11/9); areas below 1e-12 lose samples; `__add__` of Python classes modifies its left operand (C63).
* **Interpolators.** Akima reads `m_[i0]` instead of `m_[i0 + 2]` (C44); polynomial divided differences use adjacent widths
  (C45); `Polynomial::derivative` uses an uninitialised vector†; `CSplinePeriodic` depends on the history of the object
  (C65); some interpolators throw a raw `double`; `interpolate1d`: `bounds_error` has no effect (C49), descending
  abscissas, negative window.
* **Grids.** Bilinear extrapolates in the seam cell of a circular axis (C47); descending angle axes; angular y; nearest
  on temporal axes overflows (C48).
* **Fill.** `gauss_seidel`: evaluation order, out of range for one row/column, the zero guess leaves the range (C50);
  `loess`: exceptions lost, window in axis units, single x modulo 0 (C51); single-value rows overwritten, fill value INT64_MAX (C52).
* **Windows.** parzen negative beyond the radius, flat_top negative, nuttall(0) ≠ 1, lanczos without argument (C53).
* **Mesh.** `within` tested before the radius filter (C54); windows without radius on coincident points (C55);
  `bounds` starts from the smallest positive number (C68); ECEF trees cannot be unpickled (C69); kriging ignores the altitude
  of the query (C67); inverse distance returns k neighbours on a hit.
* **Radial basis functions, kriging.** One neighbour with linear/cubic/thin_plate gives 0; default epsilon with one neighbour
  gives NaN; thin_plate is singular at distance 1 (C75); "universal" kriging is simple kriging (C76); linear covariance is
  not a covariance, documented formulas of cauchy/spherical/linear differ (C77); `cauchy` and `whittle_matern` raise (C78).
* **bicubic().** The boundary modes `expand`, `wrap`, `sym` on a non-circular axis give windows whose coordinates do not
  increase (`C79_boundary_false`); `nx = 1` or `ny = 1` always raises with 'bicubic' (`C79_half_size_one`); an angular y axis
  is searched modulo 360 but not normalised afterwards (`C79_y_angle_false`); the node number size - n needs one coordinate
  more on the right than its mirror image on the left (`C79_last_node`).
* **Serialised histograms.** A size field of 2^63 or more gives a view outside of the buffer; items of 2 GiB or more move the
  read pointer backwards (`gbump(static_cast<int>(off))`); a flag byte above 1 is read into a `bool`; the shape of a pickled
  `StreamingHistogram` is not compared with its number of accumulators (C57).
* **Shapes.** `Binning1D::push` compares neither the lengths of `x` and `z` nor that of `weights`: missing values are read out of
  range (C56).
* **Orbits.** `decode_absolute_pass_number` is wrong for numbers ≤ 0 and above 2^53 (C81); a first date of `iterate` equal to the epoch is
  replaced by the current date (C82); negative pass numbers alias the pass n − m (C83); the first pass is not a half-orbit if the
  ephemeris begins in the middle of one, two equal latitudes split a pass (C84); `_rearrange_orbit` does nothing with two ascents or
  more, the branch of `calculate_orbit` for an ephemeris beginning near the equator keeps the turning points only (C85);
  `IndexError` if the first sample of a pass is the nearest to the equator (C86); `orbit_duration` divides by zero with one pass (C82).
* **Swaths, orbit.interpolate.** Fewer than three nadir points: blocks of negative size (C87); `interpolate` divides z by a/b without having
  multiplied it before: the latitude of a sample is not recovered on a flattened spheroid (C88); the across track distances use the
  along track resolution, `half_gap = 0` becomes 2 km, negative numbers of pixels, the documentation of `mask` says the opposite (C89).
* **Crossovers.** Two half-orbits wider than 180° (sun-synchronous satellites) may come out torn before the plane search (C90_wide_false); `std::min(l1.front(), l1.front())` uses the first line twice (harmless, C90_unrolled holds as it is); `Crossover.nearest` with an empty half-orbit reads an empty vector, a NaN distance passes the predicate, `calculate_crossover_list` repeats a crossover found on two segments (C92); `cartesian_plane` is documented False by default and is True.
* **Geometries.** `LineString.closest_point(lon, lat)` does not compare the sizes of its arrays: a shorter `lat` is read
  out of its range (C93_closest_sizes_false). Pickling a `Polygon` drops its empty inner rings
  (C94_polygon_pickle_false). `Box(Point(10, 0), Point(0, 10))` has its minimal corner north of the maximal one, because the
  corners are exchanged as a whole (C94_box_latitude_false); a box whose corner was set to a longitude over 180 pickles but
  does not unpickle (C94_box_pickle_setter_false).
* **Python grids.** `increasing_axes='inplace'` with the same axis object twice flips the axis twice and the array along one axis
  only (C95); it also reverses the axes of the other grids that share the object, and `numpy.flip` is a view, so neither their array
  nor the array of the caller is flipped, contrary to the documentation ("inplace" only reverses the axes) (C95). `'copy'` of a decreasing regional
  longitude axis loses its angle (C95). In `xarray.Grid4D` without time the dimensions of `z_method` and `u_method` depend on the
  enumeration of a set of strings, hence on the hash seed of the process (C97). A regular decreasing time axis reversed by
  `increasing_axes` keeps a negative half step: dates after the last one are extrapolated even with `bounds_error=True` (C97).
* **Temporal axes.** Axes with the same integers and different units are equal (C98_eq_false); the state of a temporal
  grid does not contain the unit of its axis, which is lost by pickling (C98_grid_pickle_false); a date of a shorter unit
  after the last date of the axis can be found as the last date (C98_truncation_false, with a warning); `trivariate`
  passes the dates to the C++ core as raw integers, without conversion to the unit of the axis; the arguments of the
  delegated constructor of TemporalAxis are evaluated in an unspecified order, so that an array of a refused type may be
  read as 64-bit integers before the check. The text of a date does not pad the year to four digits and the text of a
  time difference is that of a date (C99).
* **Geodetic R-tree (C100).** The index selects the `k` nearest points with the default distance of Boost (WGS84) and not with the spheroid given to the tree: with another spheroid the points returned may be others and `window_function`, which stops at the first neighbour beyond the radius, may miss some. A copy (`copy.copy`) shares its content with the original: inserting in one changes the other (`C100_copy_false`). The default `radius=None` documented for `window_function` is a TypeError (the C++ argument is a `double`). `equatorial_bounds` (not exposed to Python) uses the longitudes for the latitudes.
* **Geohash arrays.** `where`: a code that fills exactly two cells gets the range of the first one only (C101). `bounding_boxes` of
  a polygon misses the cells of the last row and column of its envelope, so that a polygon thinner than a cell may get no
  code (C102); an envelope beyond 180° converts a negative number to an unsigned one (C102). `GeoHash.grid` and `to_xarray` give the
  unit `degrees_north` to the longitudes and `degrees_east` to the latitudes (C104, C105). The precision 0 and empty elements shift by
  64 bits (C103).
* **dask.** `push_delayed` loses the type float32, the range of a Binning1D and the number of bins of a Histogram2D (C106). The
  statistics of a dask array merge the blocks even when the first axis is kept (wrong result, or refused); a block without defined
  element gives a minimum (maximum) 0, two of them NaN (C107). `variable('clear')` returns None and erases the binning (C108).
* **Periods of Python.** `as_resolution` to a finer unit keeps only the beginning of the last unit, hence `contains`, `intersects`,
  `is_adjacent`, `merge` of periods of different units are wrong and not symmetric when the first one is finer; an empty period may
  become non-empty in a coarser unit; months and years are not subdivided by weeks (C109). `PeriodList.within` and `intersection` compare
  the raw integers of different units; `merge` refuses lists of different units, hence `PeriodList.empty()` (C110).
* **fill.py.** `matrix` has no `else`: for `float32` it fills the array and then always raises (C112); the default
  `fill_value` of `vector` is refused for integers and dates (C112); `gauss_seidel` with `max_iteration=0` reports
  convergence (C111); the relaxation constant 2 may never converge, 0 < constant <= 1 does, unlike what the documentation says (C50).
* **Dates of arrays (C113).** NaT is not recognised by the functions of `dateutils`: with the second it overflows a
  32-bit `int` (undefined behaviour, as every count of seconds beyond the year 2 147 485 000 or so), with the finer
  units it is taken for a date of 1677 or earlier. `timedelta_since_january` of any date before 1970 in picoseconds,
  femtoseconds or attoseconds overflows 64 bits: the time since January 1st does not fit in the unit of the array.
* **normalize_longitudes (C115).** The Python function calls the core function for a writeable array and returns its
  argument, assuming that it was changed in place. For a writeable array that is strided (a column, a slice with a step,
  a reversed view) or not of float64, pybind11 selects the second overload, which returns a normalised copy; Python drops
  it and returns the longitudes as they were given.
* **Python RTree.** `pickle.loads(pickle.dumps(tree))`, `copy.copy(tree)` and `copy.deepcopy(tree)` of a `pyinterp.RTree` give an empty WGS84 mesh: `__setstate__` (rtree.py:481-492) calls the pybind11 `__setstate__` on an instance that already holds a C++ object, which pybind11 ignores (`C116_pickle`, `C116_pickle_false`). `query` documents `within` false by default, the code uses true (`C116_query_default_false`).
* **Axis.** `flip(inplace=False)` of a regional longitude axis returns an axis that is not an angle any more, and raises for a regular axis of one coordinate (`C117_flip_copy_false`, `C117_flip_single_false`); `==` ignores `is_circle` given at the construction unless the circle is covered (`C117_eq_angle_false`).
* **Binning1D.** `copy.copy` of a `core.Binning1DFloat64` object calls the `__copy__` bound on its base class: the copy is a `Binning2D`, without the range (C118_copy_false).
* **Linear binning.** On a decreasing axis of longitudes a sample exactly on the last longitude is brought to the wrong turn and lost (C37_decreasing_longitudes_false).
* **Binning1D +=.** The ranges of the two operands are not compared: the sum of binnings with different ranges keeps the range of the left one (C118_sum_ranges_false).
* **Geohash, doubles (C120).** The latitude 89.99999999999999 (the last double below 90) is rounded to 1 by `(x + r) / (2 r)`:
  the portable encoder converts 2^32 to `uint32_t` (undefined), the BMI2 one returns the code of the South Pole.
  `C120_north_pole_false`.
* **normalize_angle, doubles (C121).** -180.00000000000003 is normalised to 180, outside [-180, 180[, and normalising the result
  again gives -180: the function is not idempotent. `C121_half_open_false`.
* **Axes of doubles.** The last value given to a regular axis is not always one of its coordinates: with
  `numpy.linspace(-90, 90, 40)` the last coordinate is 89.99999999999997 and interpolating a grid at its own last latitude
  gives NaN, or raises with `bounds_error` (C122_last_value_false). Pickling a regular axis and flipping it twice do not give an
  equal axis (C122_pickle_false, C122_flip_false).
* **interpolate1d with doubles.** `Linear` does not return the value of the data at the second point of an interval
  (C123_linear1d_false: 0.9999999999999999 for 1).
* **Statistics in doubles.** A small weight then a value without weight gives a negative variance, hence a NaN standard
  deviation (C124_mixed_false: -4.7 with the weight 1e-20, then 0.4); with weights the mean can be greater than the greatest
  value (C124_weighted_mean_false).
* **Circles with doubles (C125).** A longitude just below the first one (0, 45, ..., 315 and -2^-60) is normalised to first + 360;
  `find_indexes` then calls `find_index`, which normalises it again to the first coordinate: the cell is (0, 1) and the bilinear weight
  is 8: with the value 1 at 0 and 0 elsewhere the result is -7. The same one cell away from the seam (-180, ..., 135 and 225 - 2^-45),
  where `_bivariate` normalises with respect to the first coordinate of the cell.
* **Streaming histograms with doubles (C127).** With weights that are not integers the search of `quantile` can run past the last bin
  (weights 0.2, 0.5, 0.4 and q = 0.8181818181818181: the loop reads `bins_[size]`, out of bounds). The same number pushed three times
  into a histogram of one bin gives a mean and a median greater than the maximum (0.1, 0.10000000000000002); pushed four times into two
  bins it gives bins that are not sorted, on which `update_bins` then does a binary search.
* **Histograms.** `h += h` on a `StreamingHistogram` or a `Histogram2D` (and `h + h` on a Python `Histogram2D`, whose result shares the C++ object) inserts in the vector of bins on which it iterates: undefined behaviour as soon as one bin exists (`C128_histogram_false`, `C128_histogram2d_false`). `DescriptiveStatistics` and the binnings are safe.
* **geodetic.RTree (C130).** `window_function(wf='lanczos')` without `arg` gives NaN at every point (`arg` is checked with its default 1 but passed as `None`,
  which the core takes for 0). `copy.copy(tree)` is a `core.geodetic.RTree`: the names are refused and the default window is Hamming.
* **Grids of 8-bit integers (C131).** `Grid3D` and `Grid4D` accept them, and no interpolator takes them.
* **Geodetic.** `authalic_radius` of a sphere is NaN (C73).

## 6. Tests of the theorems against wrong programs

`seeded/LOG.jsonl`: one line per mutant (definition, edit, claim broken, theorems that failed, theorems tightened).
Survivors led to tightened statements (for instance `C37_conservation`, `C53_table`). The remaining survivors only change
accuracy (series of `ecef_to_lla`), see C72.
