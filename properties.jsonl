{"id": "C01", "title": "Flattened and recursive multilinear interpolation on regular grids agree bit for bit", "statement": "For the same grid, values and observation point, `MultilinearRegular::<N>` (the stack-only, loop-based evaluator used for 1..6 dims) and `MultilinearRegularRecursive::<M>` (M >= N) return the same Result: the same error, or the same floating-point value computed by the same sequence of operations, so the result is identical to the last bit when the `fma` feature is off. With `fma` on, the two evaluate mathematically equal but differently rounded expressions; they agree in exact arithmetic.", "quantifier": "every number of dimensions N>=1, every M>=N, every grid, every value array, every observation, and every floating-point type (arbitrary add/sub/mul/div/floor/compare operations, no algebraic laws assumed)", "why_tests_cant": "The unit tests compare the two on a handful of grids with tolerances; bitwise equality over all shapes, values, NaNs and infinities needs an argument that the loop schedule builds the same expression tree.", "anchors": ["src/multilinear/regular.rs: MultilinearRegular::interp_one", "src/multilinear/regular_recursive.rs: MultilinearRegularRecursive::interp_one, populate"]}
{"id": "C02", "title": "Flattened and recursive multilinear interpolation on rectilinear grids agree bit for bit", "statement": "For the same grids, values and observation point, `MultilinearRectilinear::<N>` and `MultilinearRectilinearRecursive::<M>` (M >= N) return the same floating-point value bit for bit, with the `fma` feature on or off.", "quantifier": "every N>=1, M>=N, all grids, values, observations, every floating-point type, fma on/off", "why_tests_cant": "Infinite input space and bit-level claim; tests only sample.", "anchors": ["src/multilinear/rectilinear.rs: MultilinearRectilinear::interp_one", "src/multilinear/rectilinear_recursive.rs: MultilinearRectilinearRecursive::interp_one, populate"]}
{"id": "C03", "title": "Flattened and recursive multicubic interpolation on regular grids agree bit for bit", "statement": "For the same grid, values, linearize flag and observation point, `MulticubicRegular::<N>` and `MulticubicRegularRecursive::<M>` (M >= N) return the same Result, bit for bit with `fma` off; with `fma` on they agree in exact arithmetic.", "quantifier": "every N>=1, M>=N, all grids, values, observations, linearize flag, every floating-point type", "why_tests_cant": "Infinite input space, and the flattened 4^N vertex schedule is only exercised by tests for a few N and grids.", "anchors": ["src/multicubic/regular.rs: MulticubicRegular::interp_one, interp_inner", "src/multicubic/regular_recursive.rs: MulticubicRegularRecursive::interp_one, populate, interp_inner"]}
{"id": "C04", "title": "Flattened and recursive multicubic interpolation on rectilinear grids agree bit for bit", "statement": "For the same grids, values, linearize flag and observation point, `MulticubicRectilinear::<N>` and `MulticubicRectilinearRecursive::<M>` (M >= N) return the same value, bit for bit with `fma` off; with `fma` on they agree in exact arithmetic.", "quantifier": "every N>=1, M>=N, all grids, values, observations, linearize flag, every floating-point type", "why_tests_cant": "Infinite input space and bit-level claim.", "anchors": ["src/multicubic/rectilinear.rs: MulticubicRectilinear::interp_one, interp_inner", "src/multicubic/rectilinear_recursive.rs: MulticubicRectilinearRecursive::interp_one, populate, interp_inner"]}
{"id": "C05", "title": "Multilinear evaluation never panics once the interpolator was constructed", "statement": "If a multilinear constructor (regular or rectilinear, flattened or recursive) returned Ok, then evaluating any single observation point of the right dimension never panics: no out-of-bounds read of the values, grids or work arrays, no integer overflow, for any observation including NaN and infinities and for any (even non-monotonic) grid contents.", "quantifier": "all constructed interpolators, all observation points, every floating-point type", "why_tests_cant": "Absence of panics ranges over all inputs including pathological floats; a test can only show absence for the points it tries.", "anchors": ["src/multilinear/regular.rs: interp_one, get_loc", "src/multilinear/rectilinear.rs: interp_one, get_loc", "src/multilinear/regular_recursive.rs", "src/multilinear/rectilinear_recursive.rs", "src/lib.rs: index_arr, index_arr_fixed_dims"]}
{"id": "C06", "title": "Nearest-neighbor evaluation never panics once the interpolator was constructed", "statement": "If `NearestRegular::new` or `NearestRectilinear::new` returned Ok, evaluating any observation point never panics, for any observation including NaN and infinities.", "quantifier": "all constructed interpolators, all observation points, every floating-point type", "why_tests_cant": "Same as C05.", "anchors": ["src/nearest/regular.rs", "src/nearest/rectilinear.rs"]}
{"id": "C07", "title": "Multicubic evaluation panics for exactly one kind of coordinate", "statement": "If a multicubic constructor returned Ok, evaluation of any observation never panics on a rectilinear grid; on a regular grid it panics if and only if some coordinate (with no unrepresentable coordinate on an earlier axis) has floor((x-start)/step) equal to the smallest isize, because the code then subtracts one from isize::MIN. All other coordinates give Ok or Err. For f32 and f64: the panic occurs exactly if the computed quotient (x-start)/step on some axis lies in [-2^63, -2^63+1), a value exactly if on every axis it is finite and in [-2^63+1, 2^63), the error otherwise.", "quantifier": "all constructed interpolators, all observation points, every floating-point type", "why_tests_cant": "The panic needs one coordinate value out of 2^64; random tests never hit it, and absence elsewhere is a universal claim.", "anchors": ["src/multicubic/regular.rs: get_loc, interp_one", "src/multicubic/regular_recursive.rs: get_loc", "src/multicubic/rectilinear.rs: get_loc", "src/multicubic/rectilinear_recursive.rs: get_loc"]}
{"id": "C08", "title": "Constructors accept exactly the documented inputs and report the right error otherwise", "statement": "Each interpolator's `new` returns Ok exactly when the number of values equals the product of the dimension sizes, every dimension has at least two entries (four for cubic), and every step is positive (regular) or the second grid entry of every axis exceeds the first (rectilinear); otherwise it returns Err with the message of the first violated condition in that order, provided the product of dimension sizes (accumulated left to right) fits in usize. If it does not fit, the constructor panics. Rectilinear constructors do not verify monotonicity beyond the first two entries.", "quantifier": "all constructor inputs", "why_tests_cant": "Acceptance region is an iff over all shapes, lengths and values including overflow of the size product.", "anchors": ["src/multilinear/regular.rs: new", "src/multilinear/rectilinear.rs: new", "src/multilinear/regular_recursive.rs: new", "src/multilinear/rectilinear_recursive.rs: new", "src/nearest/regular.rs: new", "src/nearest/rectilinear.rs: new", "src/multicubic/*.rs: new"]}
{"id": "C09", "title": "Batch evaluation is pointwise and overwrites the whole output", "statement": "If `interp(x, out)` returns Ok then out keeps its length, and for every i, out[i] equals what `interp_one` returns for the i-th observation point; nothing depends on the previous contents of out, on other observations, or on their order (evaluating a permuted or concatenated batch permutes or concatenates the outputs).", "quantifier": "all interpolators, all batches of any length, all previous contents of out", "why_tests_cant": "Quantifies over all batch lengths, orders and buffer contents.", "anchors": ["src/multilinear/*.rs: interp", "src/nearest/*.rs: interp", "src/multicubic/*.rs: interp"]}
{"id": "C10", "title": "A failing batch leaves a well-defined buffer", "statement": "If the observation slices do not all have the length of out (or, for recursive evaluators, the number of observation slices differs from the number of dimensions), `interp` returns Err(\"Dimension mismatch\") and leaves out untouched. If evaluation fails on observation i (an unrepresentable coordinate), interp returns that error, out[0..i] already holds the results for the first i observations and out[i..] is untouched, where i is the first failing observation.", "quantifier": "all batches, all failure positions", "why_tests_cant": "Every crash/failure position in every batch; tests do not inspect the buffer after a failure.", "anchors": ["src/multilinear/*.rs: interp", "src/nearest/*.rs: interp", "src/multicubic/*.rs: interp"]}
{"id": "C11", "title": "The multilinear and nearest `interpn` entry points dispatch faithfully", "statement": "`multilinear::{regular,rectilinear}::interpn` with k grid dimensions behaves exactly as constructing the k-dimensional interpolator and calling interp for k = 1..8 (flattened evaluator for 1..6, recursive for 7..8), and `nearest::{regular,rectilinear}::interpn` likewise for k = 1..6; a mismatch between the numbers of dims/starts/steps/obs slices gives Err(\"Dimension mismatch\"), and any other number of dimensions gives the documented error, in both cases with out untouched. No length mismatch panics.", "quantifier": "all slices of all lengths", "why_tests_cant": "Covers all combinations of slice lengths and dimensions.", "anchors": ["src/multilinear/regular.rs: interpn", "src/multilinear/rectilinear.rs: interpn", "src/nearest/regular.rs: interpn", "src/nearest/rectilinear.rs: interpn"]}
{"id": "C12", "title": "The multicubic `interpn` entry points dispatch faithfully but panic on length mismatch", "statement": "`multicubic::{regular,rectilinear}::interpn` with k grid dimensions behaves exactly as constructing the k-dimensional interpolator and calling interp for k = 1..8 (flattened for 1..4, recursive for 5..8) when the slices have matching lengths, and returns the dimension error for other k. For k = 1..4 a mismatched number of starts, steps or obs slices panics instead of returning Err (unlike the multilinear and nearest entry points).", "quantifier": "all slices of all lengths", "why_tests_cant": "Covers all combinations of slice lengths and dimensions, including the panicking ones.", "anchors": ["src/multicubic/regular.rs: interpn", "src/multicubic/rectilinear.rs: interpn"]}
{"id": "C13", "title": "`interpn_alloc` equals `interpn` into a fresh buffer", "statement": "`interpn_alloc` returns Ok(v) exactly when `interpn` into a zeroed buffer of the length of the first observation slice returns Ok, and then v is that buffer; errors are passed through. With no observation slices it panics.", "quantifier": "all inputs of all six interpn_alloc functions", "why_tests_cant": "Universal over inputs.", "anchors": ["src/*/regular.rs, rectilinear.rs: interpn_alloc"]}
{"id": "C14", "title": "The recursive evaluators' capacity does not influence results and is enforced by panic", "statement": "For recursive interpolators the compile-time capacity MAXDIMS does not influence any result as long as it is at least the number of dimensions; with more dimensions than MAXDIMS the constructor panics rather than returning an error (on regular grids after all other checks have passed, on rectilinear grids before any check).", "quantifier": "all MAXDIMS, all dimension counts, all inputs", "why_tests_cant": "Relational property over all capacities.", "anchors": ["src/multilinear/*_recursive.rs: new, interp_one", "src/multicubic/*_recursive.rs: new, interp_one"]}
{"id": "C15", "title": "Interpolation reads only the values of the surrounding cell", "statement": "The result at an observation depends on vals only through the 2^N (linear, nearest) or 4^N (cubic) entries of the cell selected by the observation and the grid: two value arrays of equal length that agree on those entries give identical results, whatever (including NaN) is elsewhere.", "quantifier": "all pairs of value arrays, all observations, all grids, every floating-point type", "why_tests_cant": "Two-run (relational) property over all inputs.", "anchors": ["src/multilinear/*.rs: interp_one", "src/nearest/*.rs: interp_one", "src/multicubic/*.rs: interp_one"]}
{"id": "C16", "title": "Nearest and hold interpolators return stored values unmodified", "statement": "Nearest-neighbor (N-d and 1-D) and left/right hold interpolation return, bit for bit, one of the supplied values; no arithmetic is performed on values.", "quantifier": "all inputs, every floating-point type", "why_tests_cant": "Universal over inputs including NaN payloads and infinities.", "anchors": ["src/nearest/*.rs: interp_one", "src/one_dim/hold.rs: eval_one"]}
{"id": "C17", "title": "Evaluation errors occur exactly for unrepresentable coordinates on regular grids, never on rectilinear grids", "statement": "On a regular grid evaluating a point (linear, nearest) returns Ok exactly when every floor((x_i - start_i)/step_i) is representable as isize and otherwise Err(\"Unrepresentable coordinate value\"); on rectilinear grids evaluating a point always returns Ok, even for NaN. For f32 and f64 the condition is spelled out: the computed quotient (x_i - start_i)/step_i must be finite, at least -2^63 and below 2^63.", "quantifier": "all constructed interpolators, all observation points, every floating-point type whose usize conversion is total", "why_tests_cant": "Universal over floats.", "anchors": ["src/multilinear/regular.rs: get_loc", "src/nearest/regular.rs: get_loc", "src/multicubic/regular.rs: get_loc", "src/*/rectilinear.rs: get_loc"]}
{"id": "C18", "title": "Bisection finds the right cell on any sorted grid with logarithmic work", "statement": "On a strictly increasing grid the cell selected for v is the unique i in 0..n-2 with g[i] < v <= g[i+1] when v is inside, the first cell when v <= g[0] and the last when v > g[n-1]; the bisection makes at most 1 + ceil(log2 n) comparisons, and on any (unsorted) grid still returns a legal index.", "quantifier": "all grids of all lengths, all observations", "why_tests_cant": "Unbounded grid sizes; universal claim.", "anchors": ["src/*/rectilinear*.rs: get_loc", "src/one_dim/mod.rs: RectilinearGrid1D::index"]}
{"id": "C19", "title": "Multilinear interpolation computes the multilinear blend of the cell corners", "statement": "In exact arithmetic the multilinear result is the sum over the 2^N corners of the selected cell of (product over axes of t_k or 1-t_k) times the stored value of that corner in C order, where t_k = (x_k - lower_k)/(upper_k - lower_k).", "quantifier": "all N, grids with positive cell widths, values, observations (inside or outside); on regular grids, observations whose cell number fits isize, which is automatic in range (C17 covers the others)", "why_tests_cant": "Functional correctness over all inputs.", "anchors": ["src/multilinear/*.rs: interp_one"]}
{"id": "C20", "title": "Multilinear interpolation reproduces stored values at grid nodes", "statement": "In exact arithmetic, evaluating a multilinear interpolator at a grid node returns exactly the value stored for that node (C order), including nodes on the boundary.", "quantifier": "all N, strictly increasing grids, values, nodes", "why_tests_cant": "All grids and nodes.", "anchors": ["src/multilinear/*.rs: interp_one, get_loc"]}
{"id": "C21", "title": "Multilinear interpolation reproduces separately affine functions everywhere", "statement": "If the values are samples of a function that is affine in each coordinate separately, then in exact arithmetic interpolation and extrapolation return that function's value at every point inside or outside the grid.", "quantifier": "all such functions, all strictly increasing grids of any dimension, all observation points; on regular grids, observations whose cell number fits isize, which is automatic in range (C17 covers the others)", "why_tests_cant": "Quantifies over functions and points.", "anchors": ["src/multilinear/*.rs: interp_one"]}
{"id": "C22", "title": "Multilinear interpolation inside the grid never leaves the range of the cell's values", "statement": "For a point inside the grid, in exact arithmetic, if all stored values of the cell lie in [lo, hi] then so does the result (no overshoot); consequently perturbing every value by at most e changes the result by at most e.", "quantifier": "all grids, values, in-grid points, bounds; on regular grids, observations whose cell number fits isize, which is automatic in range (C17 covers the others)", "why_tests_cant": "Universal inequality.", "anchors": ["src/multilinear/*.rs: interp_one"]}
{"id": "C23", "title": "The multilinear interpolant is continuous", "statement": "Over the reals the multilinear interpolant (inside and outside the grid) is a continuous function of the observation point, although it is computed by cell lookup.", "quantifier": "all grids, values and points in R^N; on regular grids, observations whose cell number fits isize, which is automatic in range (C17 covers the others)", "why_tests_cant": "Topological property of an infinite set of points.", "anchors": ["src/multilinear/*.rs: interp_one, get_loc"]}
{"id": "C24", "title": "Linear and cubic interpolation are linear in the values and preserve constants", "statement": "In exact arithmetic, interpolating a*v + b*w gives a times the interpolation of v plus b times the interpolation of w; interpolating a constant array gives the constant everywhere (for multilinear and multicubic, both grid kinds, with either extrapolation setting).", "quantifier": "all value arrays, scalars, grids, points; on regular grids, observations whose cell number fits isize, which is automatic in range (C17 covers the others)", "why_tests_cant": "Relational property over all inputs.", "anchors": ["src/multilinear/*.rs", "src/multicubic/*.rs"]}
{"id": "C25", "title": "Results do not depend on the choice of coordinate origin and unit", "statement": "In exact arithmetic, shifting and positively scaling an axis (grid and observations alike) leaves every multilinear, multicubic and nearest result unchanged.", "quantifier": "all shifts, positive scales, grids, values, points", "why_tests_cant": "Relational, all inputs.", "anchors": ["src/multilinear/*.rs", "src/multicubic/*.rs", "src/nearest/*.rs"]}
{"id": "C26", "title": "Results do not depend on the order of the axes", "statement": "In exact arithmetic, permuting the axes (grid, observation coordinates, and transposing the value array accordingly) leaves every multilinear, multicubic and nearest result unchanged.", "quantifier": "all permutations, grids, values, points; on regular grids, observations whose cell number fits isize, which is automatic in range (C17 covers the others)", "why_tests_cant": "Relational, all inputs and permutations.", "anchors": ["src/multilinear/*.rs", "src/multicubic/*.rs", "src/nearest/*.rs"]}
{"id": "C27", "title": "Regular and rectilinear multilinear interpolation agree on the same grid", "statement": "If the rectilinear grid is start + i*step, then in exact arithmetic the regular and rectilinear multilinear interpolators give the same result for every representable observation, although they select different cells at nodes.", "quantifier": "all regular grids, values, points", "why_tests_cant": "Relational, all inputs.", "anchors": ["src/multilinear/regular.rs", "src/multilinear/rectilinear.rs"]}
{"id": "C28", "title": "Regular and rectilinear multicubic interpolation agree on the same grid", "statement": "As C27 for the multicubic interpolators, for both settings of linearize_extrapolation.", "quantifier": "all regular grids, values, points, both flags; on regular grids, observations whose cell number fits isize, which is automatic in range (C17 covers the others)", "why_tests_cant": "Relational, all inputs.", "anchors": ["src/multicubic/regular.rs", "src/multicubic/rectilinear.rs"]}
{"id": "C29", "title": "Regular and rectilinear nearest interpolation agree on the same grid", "statement": "As C27 for the nearest-neighbor interpolators, including ties.", "quantifier": "all regular grids, values, points; on regular grids, observations whose cell number fits isize, which is automatic in range (C17 covers the others)", "why_tests_cant": "Relational, all inputs.", "anchors": ["src/nearest/regular.rs", "src/nearest/rectilinear.rs"]}
{"id": "C30", "title": "Multicubic interpolation reproduces stored values at grid nodes", "statement": "In exact arithmetic, evaluating a multicubic interpolator at a grid node returns exactly the stored value, for both grid kinds and both extrapolation settings, including boundary nodes.", "quantifier": "all N, strictly increasing grids, values, nodes", "why_tests_cant": "All grids and nodes.", "anchors": ["src/multicubic/*.rs: interp_one, interp_inner, get_loc"]}
{"id": "C31", "title": "Multicubic interpolation reproduces separately quadratic functions", "statement": "If the values are samples of a function that is a polynomial of degree at most two in each coordinate separately, then in exact arithmetic multicubic interpolation on either grid kind returns the function's value at every point when linearize_extrapolation is false, and at every point inside the grid when it is true.", "quantifier": "all such functions, grids, points; on regular grids, observations whose cell number fits isize, which is automatic in range (C17 covers the others)", "why_tests_cant": "Quantifies over functions and points.", "anchors": ["src/multicubic/*.rs: interp_inner", "src/multicubic/mod.rs: normalized_hermite_spline, centered_difference_nonuniform"]}
{"id": "C32", "title": "Multicubic interpolation reproduces separately affine functions everywhere", "statement": "If the values are samples of a function affine in each coordinate separately, multicubic interpolation returns its value everywhere, inside and outside, with either extrapolation setting.", "quantifier": "all such functions, grids, points, both flags; on regular grids, observations whose cell number fits isize, which is automatic in range (C17 covers the others)", "why_tests_cant": "Quantifies over functions and points.", "anchors": ["src/multicubic/*.rs: interp_inner"]}
{"id": "C33", "title": "The multicubic interpolant is continuously differentiable everywhere", "statement": "Over the reals the multicubic interpolant is a C1 function on all of R^N (across cells, across the grid boundary and in the extrapolation region), for both grid kinds and both extrapolation settings.", "quantifier": "all grids, values, points in R^N; on regular grids, observations whose cell number fits isize, which is automatic in range (C17 covers the others)", "why_tests_cant": "Differentiability at infinitely many points.", "anchors": ["src/multicubic/*.rs: interp_inner, get_loc"]}
{"id": "C34", "title": "Extrapolation shape of the 1-D cubic interpolant", "statement": "Beyond the grid, with linearize_extrapolation the 1-D cubic interpolant is the affine function through the last node with the slope the interpolant has there; without it, it is the quadratic used in the last cell, continued. In the first and last cell the interpolant is a quadratic.", "quantifier": "all 1-D grids, values and points outside; on regular grids, observations whose cell number fits isize, which is automatic in range (C17 covers the others)", "why_tests_cant": "Functional equality on unbounded regions.", "anchors": ["src/multicubic/*.rs: interp_inner"]}
{"id": "C35", "title": "The multicubic slope at interior nodes is the centered difference", "statement": "At every interior node of a 1-D grid the derivative of the cubic interpolant equals the second-order centered difference of the values (on non-uniform grids the distance-weighted mean of the two one-sided slopes), and on every interior cell the interpolant is the unique cubic matching the end values and those slopes.", "quantifier": "all 1-D grids, values, nodes; on regular grids, observations whose cell number fits isize, which is automatic in range (C17 covers the others)", "why_tests_cant": "All inputs; derivative statement.", "anchors": ["src/multicubic/mod.rs: normalized_hermite_spline, centered_difference_nonuniform", "src/multicubic/*.rs: interp_inner"]}
{"id": "C36", "title": "Nearest-neighbor returns the value at the closest node, ties to the lower index, clamped outside", "statement": "In exact arithmetic the N-d nearest interpolator returns the stored value at the node whose coordinate on every axis minimises the distance to the observation among all nodes of that axis, taking the lower index on ties; for points outside the grid this is the edge node.", "quantifier": "all strictly increasing grids, values, points; on regular grids, observations whose cell number fits isize, which is automatic in range (C17 covers the others)", "why_tests_cant": "Argmin over all nodes for all points.", "anchors": ["src/nearest/*.rs: interp_one, get_loc"]}
{"id": "C37", "title": "N-d interpolation is the tensor product of 1-D interpolation", "statement": "In exact arithmetic, evaluating the N-d multilinear (multicubic) interpolator equals interpolating along the axes one at a time with the 1-D interpolator of the same kind; in particular for separable data v(i) = prod_k v_k(i_k) the result is the product of the 1-D results.", "quantifier": "all N, grids, values, points; on regular grids, observations whose cell number fits isize, which is automatic in range (C17 covers the others)", "why_tests_cant": "All inputs.", "anchors": ["src/multilinear/*.rs: interp_one", "src/multicubic/*.rs: interp_one"]}
{"id": "C38", "title": "Regular-grid bounds check flags exactly the axes with an out-of-tolerance observation", "statement": "`check_bounds` for regular grids with matching lengths and non-empty dims returns Ok and sets out[i] to true exactly when some observation on axis i is at or below (low end - atol) or at or above (high end + atol), with low/high the smaller/larger of start and start+step*(dim-1); with wrong obs or out length it returns Err and leaves out untouched; with a zero dimension or short starts/steps it panics. With a positive tolerance no point of the closed grid range is flagged; with atol = 0 the end points themselves are flagged.", "quantifier": "all grids, observation batches, tolerances", "why_tests_cant": "Iff over all batches.", "anchors": ["src/multilinear/regular.rs: check_bounds", "src/multilinear/regular_recursive.rs: check_bounds"]}
{"id": "C39", "title": "Rectilinear-grid bounds check flags exactly the axes with an out-of-tolerance observation", "statement": "As C38 for rectilinear grids with low/high the first/last grid entry; an empty axis gives Err(\"Dimension mismatch\") and nothing panics.", "quantifier": "all grids, observation batches, tolerances", "why_tests_cant": "Iff over all batches.", "anchors": ["src/multilinear/rectilinear.rs: check_bounds", "src/multilinear/rectilinear_recursive.rs: check_bounds"]}
{"id": "C40", "title": "1-D linear interpolators agree with the 1-dimensional multilinear ones", "statement": "In exact arithmetic `Linear1D` on a regular or rectilinear 1-D grid returns the same value as the N=1 multilinear interpolator of the same grid kind, at every representable observation.", "quantifier": "all 1-D grids with at least two nodes, values, points", "why_tests_cant": "Relational over all inputs.", "anchors": ["src/one_dim/linear.rs: Linear1D::eval_one", "src/one_dim/mod.rs: RegularGrid1D, RectilinearGrid1D"]}
{"id": "C41", "title": "LinearHoldLast1D is linear interpolation with clamped coordinate", "statement": "In exact arithmetic `LinearHoldLast1D` returns the `Linear1D` value at the observation clamped into the grid range: the first (last) value below (above) the grid, and it never leaves the range of the values.", "quantifier": "all 1-D grids, values, points; on regular grids, observations whose cell number fits isize, which is automatic in range (C17 covers the others)", "why_tests_cant": "All inputs.", "anchors": ["src/one_dim/linear.rs: LinearHoldLast1D::eval_one"]}
{"id": "C42", "title": "Left and right hold semantics", "statement": "On a regular 1-D grid with positive step, `Left1D` returns the value of the last node at or before the observation and `Right1D` that of the first node strictly after it; on a rectilinear 1-D grid `Left1D` returns the value of the last node strictly before the observation and `Right1D` that of the first node at or after it, clamped to the edge values outside. As a consequence the two grid kinds disagree at nodes, `Left1D` on a regular grid returns the second-to-last value at the last node, and `Right1D` on a rectilinear grid returns the second value at the first node.", "quantifier": "all 1-D grids, values, points; on regular grids, observations whose cell number fits isize, which is automatic in range (C17 covers the others)", "why_tests_cant": "All inputs; boundary convention at every node.", "anchors": ["src/one_dim/hold.rs: Left1D, Right1D", "src/one_dim/mod.rs: index, at"]}
{"id": "C43", "title": "Nearest1D returns the value at the closest node", "statement": "In exact arithmetic `Nearest1D` returns the value at the node closest to the observation, the lower one on ties, on both 1-D grid kinds, and agrees with the N=1 N-d nearest interpolator.", "quantifier": "all 1-D grids, values, points; on regular grids, observations whose cell number fits isize, which is automatic in range (C17 covers the others)", "why_tests_cant": "All inputs.", "anchors": ["src/one_dim/hold.rs: Nearest1D::eval_one"]}
{"id": "C44", "title": "1-D batch evaluation is pointwise", "statement": "`Interp1D::eval(locs, out)` returns Err(\"Length mismatch\") and leaves out untouched if the lengths differ; otherwise it writes out[i] = eval_one(locs[i]) in order and stops at the first error leaving the rest untouched; `eval_alloc` returns the same values in a fresh vector.", "quantifier": "all grids, interpolators, batches", "why_tests_cant": "All batches and failure positions.", "anchors": ["src/one_dim/mod.rs: Interp1D::eval, eval_alloc"]}
{"id": "C45", "title": "1-D grids: construction and evaluation are panic-free exactly for two or more values", "statement": "`RectilinearGrid1D::new` returns Ok exactly for equal lengths of at least two and evaluation then never panics or errs; `RegularGrid1D::new` panics on an empty value slice, and evaluating a one-element regular grid panics for every representable observation, while with two or more values evaluation never panics and errs exactly for observations whose cell number is unrepresentable.", "quantifier": "all grids and observations, every floating-point type", "why_tests_cant": "Universal.", "anchors": ["src/one_dim/mod.rs: RegularGrid1D, RectilinearGrid1D"]}
{"id": "C46", "title": "Value array layout is C order, a bijection between nodes and entries", "statement": "The stride computation addresses vals so that node (i_0..i_{N-1}) is entry ((i_0*d_1+i_1)*d_2+...)+i_{N-1}; distinct nodes address distinct entries, every entry is addressed, and all intermediate products and sums fit in usize whenever the array length does.", "quantifier": "all dimension vectors, all nodes", "why_tests_cant": "All shapes.", "anchors": ["src/lib.rs: index_arr, index_arr_fixed_dims", "src/*/*.rs: dimprod computation in interp_one"]}
{"id": "C47", "title": "linspace produces the evenly spaced grid", "statement": "`utils::linspace(start, stop, n)` has n entries, in exact arithmetic entry i is start + i*(stop-start)/(n-1), the first is start, the last is stop, and it is strictly increasing when start < stop (n >= 2); n = 0 panics.", "quantifier": "all start, stop, n", "why_tests_cant": "All n and end points.", "anchors": ["src/utils.rs: linspace"]}
{"id": "C48", "title": "meshgrid enumerates the nodes in the order the value array is addressed", "statement": "`utils::meshgrid(grids)` lists prod(dims) points and its entry at C-order index of (i_0..) is (g_0[i_0], .., g_{N-1}[i_{N-1}]); hence mapping a function over it yields the value array for which interpolation at a node returns the function there.", "quantifier": "all grids", "why_tests_cant": "All shapes.", "anchors": ["src/utils.rs: meshgrid"]}
{"id": "C49", "title": "Python `interpn` calls the routine for the requested method, element type and grid kind", "statement": "The Python function `interpn` with valid method and dtype calls the regular-grid routine exactly when assume_regular is set or the grids pass the uniform-spacing check, and then passes dims/starts/steps derived from the grids; otherwise it calls the rectilinear routine with the grids. It raises for an unsupported dtype or method, and more than 8 observation arrays raise PanicException for every method. A supplied `out` array is usable only if it has exactly one non-zero element.", "quantifier": "all argument combinations", "why_tests_cant": "All argument combinations, grids.", "anchors": ["src/interpn/__init__.py: interpn, _check_regular"]}
{"id": "C50", "title": "Python `interpn` with bounds checking only works in one dimension", "statement": "With check_bounds=True Python `interpn` allocates a flag buffer of length 1 whatever the number of dimensions, so for every input with two or more dimensions the bounds check raises a dimension-mismatch error instead of checking; in one dimension it raises exactly when some observation is out of tolerance.", "quantifier": "all grids and observations with check_bounds=True", "why_tests_cant": "Universal claim; existing tests cover only 1-D.", "anchors": ["src/interpn/__init__.py: interpn"]}
{"id": "C51", "title": "Monotone data gives a monotone multilinear interpolant", "statement": "In exact arithmetic, if the values are non-decreasing along an axis then the multilinear interpolant is non-decreasing in that coordinate when the other coordinates are inside the grid (including linear extrapolation along the axis itself). Nearest neighbor has the same property with no restriction on the other coordinates.", "quantifier": "all grids, values monotone along an axis, pairs of points; on regular grids, observations whose cell number fits isize, which is automatic in range (C17 covers the others)", "why_tests_cant": "Relational over pairs of points.", "anchors": ["src/multilinear/*.rs"]}
{"id": "C52", "title": "First-order accuracy of multilinear interpolation", "statement": "In exact arithmetic, if the values sample a function that varies by at most L*|dx_k| along each axis, then at every point inside the grid the multilinear result differs from the function by at most the sum over axes of L_k times the width of the selected cell.", "quantifier": "all Lipschitz functions, grids, in-grid points; on regular grids, observations whose cell number fits isize, which is automatic in range (C17 covers the others)", "why_tests_cant": "Quantifies over functions.", "anchors": ["src/multilinear/*.rs"]}
{"id": "C53", "title": "Floating-point error of 1-cell linear blending is bounded", "statement": "Under the standard rounding model (each operation has relative error at most u) the computed N-d linear blend with weights in [0,1] differs from the exact blend of the same weights by at most a constant depending only on N and u times the largest absolute cell value.", "quantifier": "all values, weights, rounding behaviours within u", "why_tests_cant": "All roundings.", "anchors": ["src/multilinear/*.rs: interp_one"]}
{"id": "C54", "title": "Behaviour on NaN and infinite observations", "statement": "With IEEE-style special values: a NaN or infinite observation makes regular-grid evaluation return Err and is flagged by neither bounds check when NaN; on rectilinear grids a NaN observation yields a NaN result for multilinear interpolation but a stored, ordinary value for nearest-neighbor interpolation.", "quantifier": "all grids and values, all rounding functions", "why_tests_cant": "Universal over grids, values.", "anchors": ["src/*/regular.rs: get_loc", "src/*/rectilinear.rs: get_loc, interp_one", "src/multilinear/*.rs: check_bounds"]}
{"id": "C55", "title": "Reversal symmetry of multilinear and multicubic interpolation", "statement": "In exact arithmetic, mirroring an axis (negating and reversing its grid, reversing the values along it and negating the observation coordinate) leaves multilinear and multicubic results unchanged.", "quantifier": "all rectilinear grids, values, points; on regular grids, observations whose cell number fits isize, which is automatic in range (C17 covers the others)", "why_tests_cant": "Relational over all inputs.", "anchors": ["src/multilinear/rectilinear.rs", "src/multicubic/rectilinear.rs"]}
{"id": "C56", "title": "Reach of NaN and infinite stored values", "statement": "A NaN (or infinite) value stored at a node makes the interpolated result NaN (or non-finite) exactly for the observations whose stencil contains the node: the 2 nodes per axis of the observation's cell for multilinear, 4 nodes per axis for multicubic in interior cells and 3 nodes at the boundary cells and outside. Every other observation is unaffected, and even weight zero does not hide a NaN of the stencil.", "quantifier": "all grids, values, observations, axes counts, both evaluators, all float types with IEEE special values", "why_tests_cant": "Universal over grids, positions of the special value, and roundings.", "anchors": ["src/multilinear/*.rs: interp_one", "src/multicubic/*.rs: interp_one, interp_inner"]}
{"id": "C57", "title": "Multilinear interpolation on rectilinear grids is accurate to a few units in the last place of the largest value, whatever the grid", "statement": "With correctly rounded arithmetic, finite data and no overflow, the value computed at an observation inside the grid range (or outside by at most a given number of end-cell widths) is finite and differs from the exact multilinear interpolant of the same floats by at most a bound depending only on the number of dimensions, the unit roundoff, the distance outside the grid and the largest absolute value (26 N u M inside the range, up to underflow). In particular a badly scaled or strongly non-uniform grid does not degrade accuracy.", "quantifier": "all grids, values, observations, dimensions, both evaluators, with or without fma, all rounding behaviours within u", "why_tests_cant": "A claim about every float input and every rounding, with a bound uniform in the grid.", "anchors": ["src/multilinear/rectilinear.rs: interp_one, get_loc", "src/multilinear/rectilinear_recursive.rs: interp_one"]}
{"id": "C58", "title": "Python classes accept exactly valid data", "statement": "Calling one of the six interpolator classes with its fields gives the object with these fields if the number of axes is supported (1 to 8; 1 to 6 for nearest), the array lengths match, steps are positive (regular) or every grid is increasing (rectilinear), and the element types agree; in every other case it raises pydantic's ValidationError and no object exists. The `new` constructors cast all arrays to float64 if `vals` is float64 and otherwise to float32, so integer values become float32.", "quantifier": "all classes, arrays, element types", "why_tests_cant": "Universal over arrays and element types; tests construct a few valid objects.", "anchors": ["src/interpn/multilinear_regular.py: new, _validate_model", "src/interpn/multilinear_rectilinear.py: new, _validate_model", "src/interpn/nearest_regular.py", "src/interpn/nearest_rectilinear.py", "src/interpn/multicubic_regular.py", "src/interpn/multicubic_rectilinear.py"]}
{"id": "C59", "title": "Python class evaluation is the Rust evaluation", "statement": "`eval` and `eval_unchecked` of a Python interpolator return the array the matching Rust entry point fills, in the caller's `out` or in a new array of zeros of the length of the first observation array; a Rust error becomes an AssertionError and a panic a PanicException. Arrays of another element type than the stored values raise TypeError (observations, output, and stored starts or steps), dimensions that are not usize raise OverflowError, and no observation arrays without `out` raises IndexError.", "quantifier": "all classes, arrays, element types, outputs", "why_tests_cant": "The dispatch has 12 raw routines times element types times error paths.", "anchors": ["src/interpn/*.py: eval, eval_unchecked", "src/python.rs"]}
{"id": "C60", "title": "Accepted Python interpolators can be evaluated", "statement": "An interpolator accepted by its Python class with at least 2 (multicubic: 4) nodes on every axis evaluates every observation by itself to the value of the Rust interface; on rectilinear grids every batch of observation arrays of equal length succeeds. The classes do not check the number of nodes: with fewer nodes on an axis the object is accepted and every evaluation raises AssertionError.", "quantifier": "all accepted objects, all batches of observations", "why_tests_cant": "Universal over objects and observations; includes a gap between the Python and Rust validation.", "anchors": ["src/interpn/*.py: _validate_model, eval", "src/multilinear/*.rs: new", "src/multicubic/*.rs: new", "src/nearest/*.rs: new"]}
{"id": "C61", "title": "Bounds check of the Python classes", "statement": "`check_bounds` of a Python interpolator returns exactly one flag per axis for every number of axes up to 8, set exactly when some observation on this axis lies outside the grid by `atol` or more.", "quantifier": "all objects with a nonempty grid on every axis, all observations and tolerances", "why_tests_cant": "Universal over axes counts and observations; the function-style entry point has this wrong (C50).", "anchors": ["src/interpn/*.py: check_bounds", "src/python.rs: check_bounds_*"]}
{"id": "C62", "title": "Serialization round trip", "statement": "Dumping an accepted Python interpolator to JSON and loading it gives the same interpolator: same class, dimensions, arrays, element types and extrapolation option.", "quantifier": "all accepted objects, given that Python prints and parses float64 lists faithfully (that float32 survives conversion to float64 and back is proved for IEEE 754 arithmetic)", "why_tests_cant": "Universal over array contents and element types.", "anchors": ["src/interpn/serialization.py", "src/interpn/*.py: model fields"]}
{"id": "C63", "title": "Multicubic overshoot and stability are bounded", "statement": "In exact arithmetic, inside the grid, multicubic interpolation amplifies values by at most a fixed factor per axis: on a regular grid the result deviates from the midpoint of any interval containing the values by at most (5/4)^N times half its length, and changing every value by at most eps changes the result by at most (5/4)^N*eps. On a rectilinear grid whose adjacent cells differ in width by a factor of at most rho the factor is 1 + rho^2/(2(1+rho)). Only values in the cell and one node to each side matter.", "quantifier": "all values, grids, mesh ratios, in-grid points, dimensions; on regular grids, observations whose cell number fits isize, which is automatic in range (C17 covers the others)", "why_tests_cant": "A bound over all data and all points; sampled overshoots only give lower bounds on the factor.", "anchors": ["src/multicubic/mod.rs", "src/multicubic/regular.rs", "src/multicubic/rectilinear.rs", "README.md"]}
{"id": "C64", "title": "Second-order accuracy of multilinear interpolation", "statement": "Over the reals, if the values sample a function whose second derivative along axis k is at most M_k in size inside the grid, then at every in-grid point the multilinear result differs from the function by at most the sum over axes of M_k/8 times the squared width of the selected cell.", "quantifier": "all twice (separately) differentiable functions, grids, in-grid points, dimensions; on regular grids, observations whose cell number fits isize, which is automatic in range (C17 covers the others)", "why_tests_cant": "Quantifies over functions and grids; convergence tests sample a few functions.", "anchors": ["src/multilinear/*.rs"]}
{"id": "C65", "title": "Third-order accuracy of multicubic interpolation", "statement": "Over the reals, if the values sample a function whose third derivative along axis k is at most M_k in size inside the grid, then at every in-grid point the multicubic result differs from the function by at most a constant times the sum over axes of M_k times the cubed cell width; on regular grids the bound is (5/4)^(N-1) * sum 17/48*M_k*step_k^3. End cells are included.", "quantifier": "all three times (separately) differentiable functions, grids, mesh ratios, in-grid points, dimensions; on regular grids, observations whose cell number fits isize, which is automatic in range (C17 covers the others)", "why_tests_cant": "Quantifies over functions and grids; convergence tests sample a few functions.", "anchors": ["src/multicubic/*.rs"]}
{"id": "C66", "title": "Multilinear interpolation on regular grids is accurate, even if rounding selects the neighbouring cell", "statement": "With correctly rounded arithmetic, finite data and no overflow, the value computed on a regular grid at an observation inside the grid range (or outside by at most a given number of steps) is finite and differs from the exact multilinear interpolant of the same floats by at most a bound depending on the number of dimensions, the unit roundoff, the distance outside the grid, the largest absolute value and the largest ratio kappa of a node coordinate to its step: 50 N (1 + kappa) u M inside the range, up to underflow. This covers observations next to a node, where the rounded position can fall into the neighbouring cell.", "quantifier": "all regular grids, values, observations, dimensions, both evaluators, with or without fma, all rounding behaviours within u", "why_tests_cant": "A claim about every float input and every rounding, with an explicit bound; the dangerous observations near nodes are a vanishing fraction of all inputs.", "anchors": ["src/multilinear/regular.rs: interp_one, get_loc", "src/multilinear/regular_recursive.rs: interp_one, get_loc"]}
{"id": "C67", "title": "Constant tables are reproduced exactly in floating point", "statement": "If every stored value is the same number z, multilinear and multicubic interpolation return exactly z (no rounding error) at every observation, inside or outside the grid, for which the computed weights are finite (multicubic on rectilinear grids: and the computed ratios of the widths of adjacent cells are finite and not 0); on both grid kinds, with or without fma, for every correctly rounded arithmetic.", "quantifier": "all float types whose operations are exact when the exact result is a float, all grids, dimensions, observations with finite weights, both evaluators", "why_tests_cant": "Bitwise claim over all floats, grids and roundings.", "anchors": ["src/multilinear/*.rs: interp_one", "src/multicubic/*.rs: interp_one, interp_inner"]}
{"id": "C68", "title": "Stored values are returned exactly at nodes when differences of stored values are floats, and need not be otherwise", "statement": "At a node of a rectilinear grid, or of a regular grid whose nodes are floats, multilinear interpolation in floating point returns exactly the stored value, provided differences of stored values are floats (for instance integers below 2^52 in f64). Without the condition this is false: values 2^60 and 1 at nodes 0 and 1 give 0 at node 1, which is not even between the values.", "quantifier": "all float types whose operations are exact when the exact result is a float, all grids, dimensions, nodes, both evaluators", "why_tests_cant": "Bitwise claim over all floats and grids; tests use tolerances.", "anchors": ["src/multilinear/*.rs: interp_one"]}
{"id": "C69", "title": "Rounding error of multicubic interpolation on rectilinear grids", "statement": "For finite data and an observation inside the range of a rectilinear grid whose adjacent cells differ in width by at most a factor rho, the floating-point result of multicubic interpolation is finite and differs from the exact interpolant by at most ((L+k)^N - L^N) M, where M bounds the values, L = 1 + rho^2/(2(1+rho)) is the amplification of exact interpolation and k = 1600 rho u (u the unit roundoff): at most 3200 N rho u L^N M when 3200 N rho u <= 1. The number of nodes and the location of the grid do not matter.", "quantifier": "all float types satisfying the standard rounding model, all rectilinear grids, dimensions, values, observations in range, both evaluators, with or without fma", "why_tests_cant": "A bound over all grids, values and roundings; tests compare a few points with a fixed tolerance.", "anchors": ["src/multicubic/rectilinear.rs: interp_one, interp_inner", "src/multicubic/rectilinear_recursive.rs", "src/multicubic/mod.rs: normalized_hermite_spline"]}
{"id": "C70", "title": "Rounding error of multicubic interpolation on regular grids", "statement": "For finite data and an observation inside the range of a regular grid, the floating-point result of multicubic interpolation is finite and differs from the exact interpolant by at most ((5/4+k)^N - (5/4)^N) M, where M bounds the values and k is the largest deviation of an axis (a fixed multiple of u plus the effect of the error of the computed position); if no node is larger than c steps this is at most 4200 N (1+c) u (5/4)^N M. In particular selecting the wrong neighbouring footprint or boundary rule because of rounding does no harm.", "quantifier": "all float types satisfying the standard rounding model with exact comparison, floor and integer casts, all regular grids, dimensions, values, observations in range, both evaluators, with or without fma", "why_tests_cant": "A bound over all grids, values and roundings; wrong-cell selection happens only within rounding error of a node.", "anchors": ["src/multicubic/regular.rs: interp_one, get_loc, interp_inner", "src/multicubic/regular_recursive.rs", "src/multicubic/mod.rs: normalized_hermite_spline"]}
{"id": "C71", "title": "A coordinate plane through a node interpolates the slice of the table", "statement": "If coordinate j of the observation is exactly at node i of axis j, multilinear and multicubic interpolation of an N-dimensional table give the same result as interpolating the (N-1)-dimensional table of the values with index i on axis j, at the remaining coordinates, inside or outside the grid. Nearest-neighbor interpolation gives the result of the slice for every coordinate j whose nearest node is i.", "quantifier": "all dimensions, tables, grids of both kinds, axes j, nodes i, remaining coordinates, both evaluators (possibly different ones on the two sides); on regular grids, observations whose cell number fits isize, which is automatic in range (C17 covers the others)", "why_tests_cant": "Relates two tables of different dimension at every point of a hyperplane.", "anchors": ["src/multilinear/*.rs: interp_one", "src/multicubic/*.rs: interp_one", "src/nearest/*.rs: interp_one"]}
{"id": "C72", "title": "Axes on which the data do not depend can be left out", "statement": "If the table does not depend on the index of axis j, the result does not depend on coordinate j, inside or outside the grid, and equals the result of the table without that axis; for multilinear, multicubic (linearized or not) and nearest-neighbor interpolation.", "quantifier": "all dimensions, tables, grids of both kinds, axes, observations, both evaluators; on regular grids, observations whose cell number fits isize, which is automatic in range (C17 covers the others)", "why_tests_cant": "Relates two tables of different dimension at every observation.", "anchors": ["src/multilinear/*.rs: interp_one", "src/multicubic/*.rs: interp_one", "src/nearest/*.rs: interp_one"]}
{"id": "C73", "title": "A part of the table gives the results of the whole table", "statement": "Keeping only a range of nodes on each axis (and the corresponding values) does not change multilinear and nearest-neighbor results at observations within the range kept, nor multicubic results between the second and the last but one node kept; on a side where the range reaches the end of the axis the result also agrees beyond.", "quantifier": "all dimensions, tables, grids of both kinds, ranges of nodes, observations, both evaluators; on regular grids, observations whose cell number fits isize, which is automatic in range (C17 covers the others)", "why_tests_cant": "Relates two tables at every observation, including ties on cell boundaries.", "anchors": ["src/multilinear/*.rs: get_loc, interp_one", "src/multicubic/*.rs: get_loc, interp_one", "src/nearest/*.rs: get_loc, interp_one"]}
{"id": "C74", "title": "Resampling on a finer grid does not change the multilinear interpolant", "statement": "If every node of a grid is also a node of a second grid (of the same or the other kind), and the second table holds the multilinear interpolant of the first at its nodes, then multilinear interpolation of the second table gives the same results as the first at every observation, inside or outside either grid.", "quantifier": "all dimensions, tables, pairs of grids of both kinds, observations, evaluators; on regular grids, observations whose cell number fits isize, which is automatic in range (C17 covers the others)", "why_tests_cant": "Relates the results of interpolating interpolated tables at every observation.", "anchors": ["src/multilinear/*.rs: get_loc, interp_one"]}
{"id": "C75", "title": "The multilinear interpolant varies no faster than the data", "statement": "If the slopes of the table between adjacent nodes along axis j are at most S_j in absolute value, moving coordinate j by d changes the result by at most S_j |d| (other coordinates inside the grid, also when coordinate j crosses cells or leaves the grid); inside the grid the result changes by at most the sum of S_k times the distances moved along the axes. In particular the interpolant is continuous across cell boundaries.", "quantifier": "all dimensions, tables, grids of both kinds, pairs of observations, both evaluators; on regular grids, observations whose cell number fits isize, which is automatic in range (C17 covers the others)", "why_tests_cant": "Quantifies over all pairs of observations.", "anchors": ["src/multilinear/*.rs: interp_one"]}
{"id": "C76", "title": "Observations inside the grid range never produce an error", "statement": "For a valid table every observation inside the grid range is evaluated successfully by multilinear, multicubic and nearest-neighbor interpolation on both grid kinds, in exact arithmetic; the nearest-neighbor result is one of the stored values.", "quantifier": "all dimensions, tables, grids of both kinds, observations in range, both evaluators", "why_tests_cant": "Universal over grids and observations; errors depend on an integer range check of an intermediate value.", "anchors": ["src/*/regular.rs: get_loc", "src/*/rectilinear.rs: get_loc"]}
{"id": "C77", "title": "In floating point, nearest-neighbor picks a nearest node up to rounding error", "statement": "With floating-point arithmetic of unit roundoff u, nearest-neighbor interpolation returns, bit for bit, the value stored at a node such that on every axis no other node is closer to the observation by more than an explicit bound: on rectilinear grids about 6u(1+lam) cell widths, on regular grids twice the error of the computed in-cell position times the step. On rectilinear grids the node is on every axis an end of a cell containing the observation, even if a neighbouring cell is narrower than the bound. In particular a node that is closer than all others by more than this bound is always the one whose value is returned. Only near midpoints between nodes can rounding change the choice. The stored values themselves are never altered and may be NaN or infinite.", "quantifier": "all dimensions, grids of both kinds, stored values, observations inside or up to lam end cells outside the grid, rounding behaviours within the stated error model", "why_tests_cant": "Rounding near midpoints depends on every bit of grid and observation; tests only sample clear cases.", "anchors": ["src/nearest/regular.rs: interp_one, get_loc", "src/nearest/rectilinear.rs: interp_one, get_loc"]}
{"id": "C78", "title": "Python interpn works on arrays of any shape and returns the shape of the observations", "statement": "Python interpn on arrays of any shapes gives the same routine, numbers and exceptions as on the flattened arrays. The returned array has the shape of the first observation array, or of out when out is used, and as many entries as that shape says.", "quantifier": "all shapes, contents, methods, options, both float types", "why_tests_cant": "Quantifies over all shapes, options and element types.", "anchors": ["src/interpn/__init__.py: interpn"]}
{"id": "C79", "title": "Element types accepted by Python interpn", "statement": "The element type of vals decides the routine. Values that are neither float32 nor float64 raise AssertionError. Observations, or a used out, of another element type raise TypeError. Grids may have any element type if the grid is treated as regular: start and step of each axis are computed in the grid's type and converted. On rectilinear grids a grid of another element type raises TypeError.", "quantifier": "all shapes, contents, methods, mixtures of element types", "why_tests_cant": "The combinations of element types, grid kinds and options are many, and the grid kind depends on the data.", "anchors": ["src/interpn/__init__.py: interpn, _check_regular", "src/python.rs: typed array arguments"]}
{"id": "C80", "title": "Python classes evaluate one-dimensional arrays only; check_bounds takes any shape", "statement": "eval of the six Python classes on one-dimensional arrays behaves as described by C59 and C60 and returns an array of the shape of the first observation array or of out. An observation or output array with another number of axes raises TypeError. check_bounds accepts any shapes.", "quantifier": "all classes, objects, shapes, contents", "why_tests_cant": "Universal over shapes and objects; existing tests use one-dimensional arrays.", "anchors": ["src/interpn/multilinear_regular.py: eval, check_bounds and the five other class files", "src/python.rs: PyReadonlyArray1 arguments"]}
{"id": "C81", "title": "Multilinear accuracy in IEEE f32 and f64", "statement": "Multilinear interpolation in f64 or f32 (IEEE 754, round to nearest even, with or without fma) of finite data bounded by M at a finite observation in the grid range returns a finite number that differs from the exact interpolant by at most 26·N·u·M + 3·N·η on rectilinear grids, and by at most 60·N·(1+κ)·u·M + 3·N·η on regular grids whose nodes are at most κ steps from zero. u is 2^-53 or 2^-24, η is half the smallest subnormal number.", "quantifier": "all N (up to 1000 rectilinear), grids, values and observations below stated magnitudes, flattened and recursive evaluators, fma on and off", "why_tests_cant": "Rounding errors depend on all bits of all inputs; tests sample a few and use ad hoc tolerances.", "anchors": ["src/multilinear/rectilinear.rs: interp_one", "src/multilinear/regular.rs: interp_one", "src/multilinear/rectilinear_recursive.rs: populate", "src/multilinear/regular_recursive.rs: populate"]}
{"id": "C82", "title": "Multicubic accuracy in IEEE f32 and f64", "statement": "Multicubic interpolation in f64 or f32 at a finite observation in the grid range returns a finite number that differs from the exact interpolant by at most 3200·N·ρ·u·Λ^N·M on rectilinear grids whose adjacent cell widths differ by at most a factor ρ, and by at most 4200·N·(1+κ)·u·(5/4)^N·M on regular grids. Λ is the bound of C63 for the ratio ρ.", "quantifier": "all N up to 8, grids, values and observations within stated magnitudes, both settings of linearize_extrapolation, flattened and recursive evaluators, fma on and off", "why_tests_cant": "As C81; in addition errors of the slopes are amplified through the axes.", "anchors": ["src/multicubic/rectilinear.rs: interp_one", "src/multicubic/regular.rs: interp_one", "src/multicubic/rectilinear_recursive.rs", "src/multicubic/regular_recursive.rs"]}
{"id": "C83", "title": "Nearest neighbor selection in IEEE f32 and f64", "statement": "Nearest-neighbor interpolation in f64 or f32 at a finite observation in the grid range returns, bit for bit, the value stored at a node that is nearest up to 7·u cell widths on each axis (rectilinear) or 7·(1+κ)·u steps (regular grid with nodes at most κ steps from zero). On rectilinear grids the node is on every axis an end of a cell containing the observation. Stored values may be anything, including NaN.", "quantifier": "all N, grids, values and observations below stated magnitudes, fma on and off", "why_tests_cant": "Ties and near-ties are decided by rounding; tests cannot enumerate them.", "anchors": ["src/nearest/rectilinear.rs: interp_one, get_loc", "src/nearest/regular.rs: interp_one, get_loc"]}
{"id": "C84", "title": "Multilinear results keep the sign of the data in floating point", "statement": "Multilinear interpolation on a rectilinear grid of finite nodes, computed in IEEE arithmetic at a finite observation in the grid range, never returns a negative number if no stored value is negative, and never a positive number if no stored value is positive. This holds without any bound on magnitudes: cells wider than the largest float, overflow, underflow, infinite and NaN values are included. On regular grids it is false: with start -1 and step 0.1 the observation -0.2 is in range and non-negative values can give a negative result.", "quantifier": "all IEEE binary formats (f32 and f64 among them), all N, rectilinear grids, values, in-range observations, flattened and recursive evaluators, fma on and off", "why_tests_cant": "Depends on how five roundings combine for every pair of values and every cell; a test samples a few.", "anchors": ["src/multilinear/rectilinear.rs: interp_one", "src/multilinear/rectilinear_recursive.rs: interp_one", "src/multilinear/regular.rs: interp_one, get_loc"]}
{"id": "C85", "title": "The bounds check in floating point misses nothing and over-reports only by rounding", "statement": "For finite grids, observations and tolerance atol >= 0 in IEEE arithmetic, the rectilinear check_bounds flags every axis that has an observation at or beyond the range widened by atol, and flags only axes with an observation at or beyond the range widened by atol/(1+u); with atol = 0 it flags exactly the axes with an observation not strictly inside the range. On regular grids the same holds up to the rounding error of the computed end of the axis.", "quantifier": "all IEEE binary formats, all N, grids, observations, tolerances, previous flags", "why_tests_cant": "The boundary cases are single floats next to the limit.", "anchors": ["src/multilinear/rectilinear.rs: check_bounds", "src/multilinear/regular.rs: check_bounds"]}
{"id": "C86", "title": "Between two neighbouring nodes the computed interpolant moves in one direction", "statement": "Multilinear interpolation on a rectilinear grid in IEEE arithmetic, at observations that differ only on the last axis and lie there in the same cell: if the coordinate increases, the results are monotone, all increasing or all decreasing (ties allowed, NaN unordered). In one dimension this is the whole interpolant. Across a node it can fail: increasing data with a decreasing result exist.", "quantifier": "all IEEE binary formats, all N, grids, values including infinities and NaN, triples of observations, flattened and recursive evaluators, fma on and off", "why_tests_cant": "Requires comparing the results at every pair of floats in a cell.", "anchors": ["src/multilinear/rectilinear.rs: interp_one", "src/multilinear/rectilinear_recursive.rs: interp_one"]}
{"id": "C87", "title": "In floating point, multilinear results leave the range of the data by rounding error only", "statement": "If all stored values lie between lo and hi, multilinear interpolation in f64 or f32 at a finite observation in the grid range returns a finite number between lo and hi, widened by 26·N·u·max(|lo|,|hi|) on rectilinear grids and 60·N·(1+κ)·u·max(|lo|,|hi|) on regular grids, plus an underflow term. Some widening is necessary: values -2^-53 and 1+2^-52 give 1+2^-51 at the second node. The bound on the magnitude of the values matters: near the largest float two values of opposite sign, and even two of the same sign, can give an infinite result between or at their nodes.", "quantifier": "all N up to the stated limit, grids, values and observations below stated magnitudes, flattened and recursive evaluators, fma on and off", "why_tests_cant": "A worst case over all data; the exact bound (C22) does not transfer to rounded arithmetic.", "anchors": ["src/multilinear/rectilinear.rs: interp_one", "src/multilinear/regular.rs: interp_one"]}
{"id": "C88", "title": "linspace in floating point", "statement": "linspace(start, stop, n) with n >= 2 in f64 or f32 returns n finite numbers within 8·u·max(|start|,|stop|) (plus underflow) of the evenly spaced points; for start <= stop the first is start and they do not decrease. The last need not be stop: linspace(0, 1, 50) ends in 1 - 2^-53. linspace(start, stop, 1) is a single NaN for all start and stop.", "quantifier": "all finite start, stop below stated magnitudes, all n up to 2^53 (f64) or 2^24 (f32)", "why_tests_cant": "The error depends on all of start, stop, n and the index.", "anchors": ["src/utils.rs: linspace"]}
{"id": "C89", "title": "Negating the data negates the result in floating point; the sign of zeros does not matter", "statement": "In IEEE 754 arithmetic of any binary format, evaluating with every stored value negated gives the same outcome (the same error or panic, or a result): the result is the negation of the original one, up to the sign of a zero result, and is NaN exactly when the original is NaN. Replacing stored values by values that differ only in the sign of zero changes the result at most in the sign of zero. Holds for every observation, including NaN and infinities, and every grid, valid or not.", "quantifier": "all formats, dimensions, grids, values, observations, both evaluators, fma on and off, all interpolation kinds, 1-D and N-D", "why_tests_cant": "Bit-level symmetry over all data, including non-finite values; rounding could break it at any operation.", "anchors": ["src/multilinear/rectilinear.rs: interp_one", "src/multilinear/regular.rs: interp_one", "src/multicubic/rectilinear.rs: interp_one", "src/multicubic/regular.rs: interp_one", "src/nearest/rectilinear.rs: interp_one", "src/nearest/regular.rs: interp_one", "src/one_dim/mod.rs"]}
{"id": "C90", "title": "The 1-D interpolators in floating point", "statement": "In f64 and f32, at a finite in-range observation: Linear1D and LinearHoldLast1D return a finite number within 15·u·M (rectilinear) or 25·(1+κ)·u·M (regular) of the exact result, plus an underflow term, provided no slope overflows. On rectilinear grids LinearHoldLast1D outside the range and Left1D, Right1D everywhere return exactly the stored value that exact comparison selects, and Nearest1D returns the value of a node such that no other is closer by a factor above 1+3u. On regular grids Left1D, Right1D and Nearest1D return the value of a node that is the right choice up to 5·(1+κ)·u·step (12·(1+κ)·u·step for Nearest1D). Exceptions: a narrow cell with large values gives NaN at its own node; far above the grid Nearest1D returns the last value but one; Linear1D can exceed the largest value.", "quantifier": "all grids, values and finite observations below stated magnitudes; fma on and off", "why_tests_cant": "Worst case over all inputs; the failures need extreme magnitudes that random tests never draw.", "anchors": ["src/one_dim/linear.rs: Linear1D::eval_one", "src/one_dim/linear.rs: LinearHoldLast1D::eval_one", "src/one_dim/hold.rs: eval_one", "src/one_dim/mod.rs: RegularGrid1D::at, RectilinearGrid1D::at"]}
{"id": "C91", "title": "Errors in the node coordinates", "statement": "If the nodes of a grid are moved by at most ε times the width of the narrowest cell of each axis (for example when a rectilinear grid is replaced by a regular one, or when coordinates are converted between types), the multilinear result at an observation in the range of the original grid changes by at most ((1+2ε)^N − 1)·M, where M bounds the stored values. The nearest-neighbor result on the moved grid is the value at a node that is nearest on the original grid up to twice the largest node movement.", "quantifier": "all pairs of grids of the same shape (of either kind), values, dimensions and observations in range; on regular grids, observations whose cell number fits isize, which is automatic in range (C17 covers the others)", "why_tests_cant": "Sensitivity is a worst case over all perturbations and observations, including those that cross a cell boundary.", "anchors": ["src/multilinear/regular.rs: interp_one", "src/multilinear/rectilinear.rs: interp_one", "src/nearest/regular.rs: interp_one", "src/nearest/rectilinear.rs: interp_one"]}
{"id": "C92", "title": "Accuracy of Python interpn, regular-grid detection included", "statement": "A grid that passes the Python regularity check (all computed spacings equal) has its i-th node within 2·i·u·step of start + i·step. For f64 and f32 arrays, 1 to 8 increasing grids whose nodes are at most κ first spacings in size, and observations in range, interpn(obs, grids, vals, method=\"linear\") succeeds, uses the regular routine exactly if all grids have equal computed spacings, and returns finite numbers, each within 110·N·(1+κ)·u·M (plus underflow) of the exact multilinear interpolant on the grids as given, whichever routine it chose. The check has no tolerance: numpy.linspace(0, 1, 11) is not recognised as regular.", "quantifier": "all grids, values and batches of in-range observations below stated magnitudes, 1 to 8 dimensions, fma on and off", "why_tests_cant": "The detected grid differs from the given one by rounding only; the effect on results is a worst case over all grids, values and observations, including those beyond the last node of the detected grid.", "anchors": ["src/interpn/__init__.py: interpn", "src/interpn/__init__.py: _check_regular", "src/multilinear/regular.rs: interpn", "src/multilinear/rectilinear.rs: interpn"]}
{"id": "C93", "title": "Stability and accuracy of multicubic extrapolation", "statement": "At observations outside the grid by at most lam end cells on each axis, with adjacent cell widths within a factor ρ of each other: changing every value by at most ε changes the exact multicubic result by at most Λ^N·ε, where Λ = 1 + ρ²/(2(1+ρ)) + 8ρ·lam·(1+lam), whichever way linearize_extrapolation is set. In rounded arithmetic the result is finite and within a bound proportional to N·ρ·(1+lam)³·u·Λ^N·M of the exact result on rectilinear grids, and N·(1+κ)·(1+lam)³·u·Λ^N·M on regular grids whose nodes and observations are at most κ steps in size; explicit constants for f64 and f32.", "quantifier": "all grids, values bounded by M, observations within lam cells of the range, evaluators, fma on and off, both extrapolation modes, N ≥ 1 (N ≤ 8 for the explicit constants); on regular grids, observations whose cell number fits isize, which is automatic in range (C17 covers the others)", "why_tests_cant": "Outside the grid the error grows with the distance; a worst-case bound over all data and distances cannot be sampled, and rounding may select the wrong one of two extrapolation rules at the edge.", "anchors": ["src/multicubic/regular.rs: interp_inner", "src/multicubic/regular.rs: get_loc", "src/multicubic/rectilinear.rs: interp_inner", "src/multicubic/rectilinear.rs: get_loc"]}
{"id": "C94", "title": "Total error of tabulating and interpolating a smooth function in floating point", "statement": "Tabulate a function F of N real variables on a grid, with errors of at most ε in the table, and interpolate in f64 or f32 at a finite observation in the grid range. The computed number is finite and differs from the true value of F at the observation by at most: for linear interpolation, the sum over axes of D_k/8 times the squared cell width (D_k bounds the second derivative) plus ε plus the rounding error of C81; for cubic interpolation, the third-order error of C65 plus Λ^N·ε plus the rounding error of C82. The same holds for every entry of the array returned by the Python function interpn with method=\"linear\", whether or not the grids are recognised as regular.", "quantifier": "all functions with bounded second (third) derivatives in each variable, tables with errors up to ε, grids, observations in range, evaluators, fma on and off, N ≤ 1000 (linear) or 8 (cubic, Python), magnitudes as in C81, C82, C92", "why_tests_cant": "Combines the error of the method, of the data and of the arithmetic into one guarantee about the mathematical function, for all smooth functions and all grids; a test compares a few functions at a few points with an ad hoc tolerance.", "anchors": ["src/multilinear/regular.rs: interp_one", "src/multilinear/rectilinear.rs: interp_one", "src/multicubic/regular.rs: interp_one", "src/multicubic/rectilinear.rs: interp_one", "src/interpn/__init__.py: interpn"]}
{"id": "C95", "title": "Python nearest-neighbour calls return a stored value of a truly nearest node, detection of regular grids included", "statement": "For interpn(obs, grids, vals, method=\"nearest\") in float64 or float32 with 1 to 6 increasing grids and finite observations in range, the call succeeds; the regular routine is used exactly if the computed spacings of every grid compare equal; and each returned entry is, bit for bit, the value stored at a node such that, on every axis, no node of the grid as the caller gave it is closer to the observation by more than 20(1+kappa)u first spacings (kappa bounds the node sizes in units of the first spacing).", "quantifier": "all grids (uniform or not) with 110(1+kappa)u <= 1 and normal spacings, all stored values including NaN and infinities, all batches of finite in-range observations, fma on or off", "why_tests_cant": "The regular routine never sees the user's nodes: it rebuilds them as start + i*step from a step that was itself rounded, so which node wins near a midpoint depends on rounding in the detection, the reconstruction and the comparison; tests use grids whose nodes are exact.", "anchors": ["src/interpn/__init__.py: interpn, _check_regular", "src/nearest/regular.rs: interp_one", "src/nearest/rectilinear.rs: interp_one"]}
{"id": "C96", "title": "Multicubic results change in proportion to the change of the observation, inside the grid and nearby", "statement": "In exact arithmetic, if the slopes of the data between adjacent nodes along axis k are at most S_k in size, then for two observations that lie inside the grid or at most lam end cells outside it on every axis, the multicubic results differ by at most (3+4 lam) L^(N-1) times the sum over the axes of S_k |x'_k - x_k|, with L = 1 + rho^2/(2(1+rho)) + 8 rho lam (1+lam), where rho bounds the ratio of adjacent cell widths. In particular there is no jump when the observation crosses a node, leaves the grid or moves between the cubic and the (linear or cubic) extrapolation region.", "quantifier": "all dimensions, grid kinds, evaluators, fma settings, both settings of linearize_extrapolation, all data, all pairs of observations within lam cells of the grid; on regular grids, observations whose cell number fits isize, which is automatic in range (C17 covers the others)", "why_tests_cant": "Tests sample a few points per cell; a bound on the change for every pair of points across arbitrary cell boundaries on arbitrary uneven grids is a statement about a continuum.", "anchors": ["src/multicubic/regular.rs: interp_one", "src/multicubic/rectilinear.rs: interp_one", "src/multicubic/mod.rs: normalized_hermite_spline, centered_difference_nonuniform"]}
{"id": "C97", "title": "Small errors in the node coordinates change multicubic results little", "statement": "In exact arithmetic, take two grids of the same shape with the same values, at most M in size, whose nodes differ by at most eps times the narrowest cell of the second grid, and let rho bound the ratio of adjacent cell widths of the first. At an observation in the range of the first grid both multicubic calls succeed and the results differ by at most ((L+d)^N - L^N) M, where L = 1 + rho^2/(2(1+rho)) and d = eps (7 + rho + 8 eps).", "quantifier": "all dimensions, all pairs of grids of either kind, all evaluators and fma settings (also different ones), both settings of linearize_extrapolation, all values, all observations in range of the first grid (possibly outside the second); on regular grids, observations whose cell number fits isize, which is automatic in range (C17 covers the others)", "why_tests_cant": "Moving nodes changes the cell chosen, the weights and the finite-difference slopes at once, and near the boundary it switches to extrapolation; a bound for every displacement and position is a continuum of cases.", "anchors": ["src/multicubic/regular.rs: interp_one", "src/multicubic/rectilinear.rs: interp_one", "src/interpn/__init__.py: _check_regular"]}
{"id": "C98", "title": "Python cubic calls are accurate for the grids as given, detection of regular grids included", "statement": "For interpn(obs, grids, vals, method=\"cubic\") in float64 or float32 with 1 to 8 increasing grids of at least 4 nodes and finite observations in range, the call succeeds; the regular routine is used exactly if the computed spacings of every grid compare equal; and every returned entry is finite and differs from exact multicubic interpolation on the grids as the caller gave them by at most 4700 N rho (1+kappa) u L^N M with L = 1 + rho^2/(2(1+rho)), where M bounds the values, kappa the node sizes in units of the first spacing and rho the ratio of adjacent cell widths.", "quantifier": "all grids (uniform or not) with 4700 N rho (1+kappa) u <= 1 and normal spacings, all values bounded by M with 2^-1022 <= M <= 2^600 (float64) or 2^-126 <= M <= 2^20 (float32), all batches of finite in-range observations, both settings of linearize_extrapolation, fma on or off", "why_tests_cant": "Four sources of error meet (detection of regularity, reconstruction of the nodes, choice of the cell, evaluation of the splines), and the regular routine may extrapolate at the last node as given; tests compare a few points with a tolerance chosen by hand.", "anchors": ["src/interpn/__init__.py: interpn, _check_regular", "src/multicubic/regular.rs: interp_one", "src/multicubic/rectilinear.rs: interp_one"]}
{"id": "C99", "title": "Changing the unit of a coordinate by a power of two changes no bit of the result", "statement": "Take any IEEE 754 binary format. If, axis by axis, the grid (nodes, or start and step) and the observation point are multiplied exactly by a power of two (a different one for every axis is allowed), and the new coordinates stay a small factor below the largest float so that differences cannot overflow, then multilinear, multicubic and nearest-neighbour interpolation, on regular and rectilinear grids, with either evaluator, with and without fma, inside and outside the grid, return bit for bit the same result, or end with the same error. This includes data that are subnormal in one unit and normal in the other, signed zeros, infinities and NaN. The same holds of the 1-D interpolators left, right and nearest; of the bounds checks, if the tolerance is scaled too; and of the Python function interpn, which also takes the same decision between regular and rectilinear routine. (It is false of the 1-D linear interpolators, whose slope is a quotient of values and coordinates and may underflow, and of factors that are not powers of two.)", "quantifier": "for all formats, exponents, grids, values (special ones included), observation points, numbers of axes, evaluators and fma settings, as long as the scaled coordinates stay below a half (rectilinear) or an eighth (regular; extent of the grid included) of the largest float; for Python below a thirty-second", "why_tests_cant": "Bit-for-bit equality over all floats and all powers of two, across the boundary between subnormal and normal numbers, is not reachable by sampling; one rounding step whose result depends on the unit (say an absolute epsilon in a comparison) would show up for a few inputs only.", "anchors": ["src/multilinear/regular.rs", "src/multilinear/rectilinear.rs", "src/multicubic/regular.rs", "src/multicubic/rectilinear.rs", "src/nearest/regular.rs", "src/nearest/rectilinear.rs", "src/one_dim/mod.rs", "src/interpn/__init__.py"]}
{"id": "C100", "title": "Multilinear extrapolation amplifies errors by at most (1 + 2 lam)^N, and loses no more accuracy than that", "statement": "Outside the grid, by at most lam end cells on each of the N axes: (a) in exact arithmetic, changing every value by at most eps changes the multilinear result by at most (1 + 2 lam)^N eps, and this factor is attained; (b) in f64, on a rectilinear grid, the result computed is finite and differs from the exact one by at most (1 + 2 lam)^N (26 N 2^-53 M + 3 N 2^-1075), where M bounds the values; (c) on a regular grid whose nodes and observations are at most kappa steps from zero by at most (1 + 2 lam)^N (60 N (1 + kappa) 2^-53 M + 3 N 2^-1075). The same in f32 with 2^-24 and 2^-150. Both evaluators, with and without fma.", "quantifier": "for all grids, values, observation points, numbers of axes N (N <= 1000 rectilinear; 100 N (1 + kappa) <= 2^53 or 2^24 regular), lam >= 0 (lam <= kappa regular), evaluators and fma settings, as long as nodes, observations and (1 + 2 lam)^N times the values stay a small factor below the largest float and the steps are normal numbers", "why_tests_cant": "A bound on the rounding error over all grids, values and distances from the grid cannot be sampled: the worst case needs alternating values and rounding errors of one sign. Tests of extrapolation compare a few points of smooth functions.", "anchors": ["src/multilinear/regular.rs", "src/multilinear/rectilinear.rs", "src/multilinear/regular_recursive.rs", "src/multilinear/rectilinear_recursive.rs"]}
{"id": "C101", "title": "Memory layout of numpy arrays: irrelevant to the function, contiguous one-dimensional arrays only for the classes", "statement": "(a) The Python function interpn gives the same result, or raises the same exception, for any arrays with the same shapes, element types and elements, however they lie in memory: slices with steps, reversed, transposed or broadcast views give what contiguous copies give. (b) An `out` that interpn accepts (one element, not 0) is changed in place: the returned array has its shape and occupies its places, and every other element of the underlying buffer is unchanged. (c) The eval method of the six classes gives, on contiguous one-dimensional arrays, slices of larger buffers included, the results described by C80; a given `out` is changed in place and nothing else in its buffer is. (d) If an observation array or `out` is not contiguous or not one-dimensional, eval raises TypeError (although its documentation promises AssertionError): it never reads the elements in between.", "quantifier": "for all arrays that numpy can represent (any buffer, offset, shape and strides with all elements inside the buffer) of float32, float64 or another type; all methods, grids, values and options; (d) for at most 8 arrays and dimensions that fit usize", "why_tests_cant": "Whether elements are read at the right places of a buffer, and only those of out are written, depends on shape, strides and offset of every argument; tests pass freshly allocated contiguous arrays.", "anchors": ["src/python.rs", "src/interpn/__init__.py", "src/interpn/multilinear_regular.py", "src/interpn/multilinear_rectilinear.py", "src/interpn/nearest_regular.py", "src/interpn/nearest_rectilinear.py", "src/interpn/multicubic_regular.py", "src/interpn/multicubic_rectilinear.py", "src/interpn/serialization.py"]}
{"id": "C102", "title": "Equivalent ways of asking give the same floating-point result up to rounding", "statement": "In IEEE 754 arithmetic, linear and cubic results inside the grid change only by rounding error when (a) the crate is built with or without the fma feature, for the flattened and the recursive evaluators alike (which with equal settings agree bit for bit, C01-C04); (b) a uniformly spaced grid is passed by starts and steps or by its nodes; (c) the axes are listed in another order with the values transposed accordingly; (d) the same numbers are passed as f32 instead of f64. The bounds are explicit: with unit roundoff u (2^-53 or 2^-24), dimension N, largest value M, linear results differ by at most 52 N u M on rectilinear grids and 120 N (1+k) u M on regular grids whose nodes are at most k steps from 0, plus a few subnormal units; cubic results by at most 6400 N p u (1+p^2/(2(1+p)))^N M on rectilinear grids with adjacent cells of ratio at most p and 8400 N (1+k) u (5/4)^N M on regular ones; f32 and f64 results by 27 N 2^-24 M (on regular grids 61 N (1+k) 2^-24 M) and about half of the cubic bounds with u = 2^-24. All results are finite.", "quantifier": "for all finite f32 and f64 grids, values and observation points inside the grid within the stated magnitudes (nodes up to 2^1022, values up to 2^1020 for linear and 2^700 for cubic interpolation on rectilinear f64 grids), any number of dimensions up to 1000 (linear) or 8 (cubic), any permutation of the axes", "why_tests_cant": "Tests compare variants on a few grids with a tolerance chosen by hand; how far apart the variants can be on ill-conditioned grids is a statement about all roundings of all intermediate results.", "anchors": ["src/multilinear/regular.rs", "src/multilinear/rectilinear.rs", "src/multilinear/regular_recursive.rs", "src/multilinear/rectilinear_recursive.rs", "src/multicubic/regular.rs", "src/multicubic/rectilinear.rs", "src/multicubic/mod.rs", "src/lib.rs"]}
{"id": "C103", "title": "linearize_extrapolation only concerns observations outside the grid", "statement": "Setting linearize_extrapolation does not change how cubic interpolation behaves inside the grid. On rectilinear grids the result is the same bit for bit, in any arithmetic and even if the grid is not sorted, for every observation greater than the first node and not greater than the last node of every axis. On regular grids it is the same bit for bit whenever the computed cell number floor((x - start)/step) is that of a cell; in f64 (f32) this is the case from the first node up to a relative distance of 2^-51 (2^-22) before the last node. In exact arithmetic the two results agree on the whole closed grid, end nodes included; in f64 and f32 they differ there by at most twice the rounding bound of C82. The one effect inside the grid is at the first node of a rectilinear axis and the last node of a regular axis: there the code takes the extrapolation branch, so that with the flag the stored value is returned and without it a rounding error may remain. Outside the grid the flag does change the results.", "quantifier": "for all grids, values and observations inside the grid, any number of dimensions (up to 8 for the rounding bound), the flattened and the recursive evaluators, with and without fma, any arithmetic (first part), exact arithmetic, f32 and f64", "why_tests_cant": "A test compares both settings at some points; an extrapolation branch entered by mistake near one node of one axis changes results only there, in the last digits, and only on some axes of an N-dimensional grid.", "anchors": ["src/multicubic/regular.rs", "src/multicubic/rectilinear.rs", "src/multicubic/regular_recursive.rs", "src/multicubic/rectilinear_recursive.rs"]}
{"id": "C104", "title": "Python classes are accurate in f32 and f64", "statement": "Each of the six Python classes, built by `new` from numpy arrays and evaluated at observations inside the grid, succeeds and returns one value per observation that is accurate: for the multilinear classes within a small multiple of the unit roundoff times the largest value of the exact interpolant of the grid and values held by the object (26 N u M on rectilinear, 60 N (1+k) u M on regular grids), for the cubic classes within the bounds of C82, for the nearest classes the stored value of a node whose distance is the least up to a few rounding errors of a cell. The element type is that of the values: float64 if they are float64, float32 otherwise; starts, steps and grids of another type are converted first, and the result is accurate for the converted arrays.", "quantifier": "for all classes, 1 to 8 dimensions (nearest 6), all grids valid after conversion with finite nodes in range, all finite bounded values (any values, also NaN, for nearest), all observation arrays of a common length inside the grid, with and without fma, values in float32, float64 or another type", "why_tests_cant": "The tests compare with numpy or scipy on a few grids with a tolerance; they cannot exclude a dtype, dimension count, grid or observation where construction succeeds and evaluation fails or a conversion between element types spoils the result.", "anchors": ["src/interpn/multilinear_regular.py", "src/interpn/multilinear_rectilinear.py", "src/interpn/multicubic_regular.py", "src/interpn/multicubic_rectilinear.py", "src/interpn/nearest_regular.py", "src/interpn/nearest_rectilinear.py", "src/python.rs"]}
{"id": "C105", "title": "Raising stored values never lowers an interpolated result", "statement": "If two value arrays on the same grid satisfy v <= v' entry by entry, then at every observation inside the grid the multilinear result for v is at most the one for v' in exact arithmetic, and exceeds it by at most twice the rounding bound of C81 in f64 and f32. Nearest-neighbor interpolation and the 1-D hold and nearest interpolators preserve any relation between stored values at every observation, in any arithmetic. Neither holds for multilinear extrapolation or for cubic interpolation, and in floating-point arithmetic raising one value can lower a result.", "quantifier": "for all grids of both kinds, value arrays, observations (inside the grid for multilinear), any number of dimensions (up to 1000 for the rounding bound on rectilinear grids), flattened and recursive evaluators, with and without fma", "why_tests_cant": "A test raises some values on some grid and looks at some points; a weight with the wrong sign for one corner of one cell shape, or read from the wrong position, shows only with particular data.", "anchors": ["src/multilinear/regular.rs", "src/multilinear/rectilinear.rs", "src/multilinear/regular_recursive.rs", "src/multilinear/rectilinear_recursive.rs", "src/nearest/regular.rs", "src/nearest/rectilinear.rs", "src/one_dim/hold.rs"]}
{"id": "C106", "title": "Convex data give convex results; interpolants of convex functions do not underestimate", "statement": "In exact arithmetic, if the values are convex (concave) along an axis then the multilinear interpolant is a convex (concave) function of that coordinate, from minus to plus infinity, at all points whose other coordinates are inside the grid. If the values are not below a function that is convex in each coordinate separately, such as samples of it, the interpolant is not below it inside the grid; concave functions are not overestimated. In f64 and f32 this holds up to the error of the stored values and the rounding bound of C81. Beyond the ends of a 1-D grid the interpolant of a convex function does not overestimate it. Cubic interpolation has neither property.", "quantifier": "for all grids of both kinds, values, convex or concave functions and observations, any number of dimensions (up to 1000 for the rounding bound on rectilinear grids), flattened and recursive evaluators, with and without fma", "why_tests_cant": "Convexity relates the results at all triples of points, across all cells and the extrapolation regions; tests compare single points with reference values.", "anchors": ["src/multilinear/regular.rs", "src/multilinear/rectilinear.rs", "src/multilinear/regular_recursive.rs", "src/multilinear/rectilinear_recursive.rs"]}
{"id": "C107", "title": "In floating point, results follow the observation without jumps and monotone data give monotone results, up to rounding", "statement": "In f64 and f32, for two observations inside the grid, the multilinear results differ by at most the sum over the axes of the largest slope of the data times the distance moved, plus twice the rounding bound of C81; multicubic results by at most 3 L^(N-1) times that sum plus twice the rounding bound of C82 (L = 1 + p^2/(2(1+p)) for adjacent cells of ratio at most p, 5/4 on regular grids). This includes moves across any number of cell boundaries and to the end nodes, where the code switches branches. If the data do not decrease along an axis, moving up that axis does not lower the multilinear result by more than twice the rounding bound of C81.", "quantifier": "for all finite f32 and f64 grids of both kinds, values and pairs of observations inside the grid within the stated magnitudes, any number of dimensions (C81 and C82 limits), flattened and recursive evaluators, with and without fma, both settings of linearize_extrapolation", "why_tests_cant": "Relates the computed results at all pairs of floats, in particular neighbouring floats on the two sides of every node, where rounding may select either cell.", "anchors": ["src/multilinear/regular.rs", "src/multilinear/rectilinear.rs", "src/multicubic/regular.rs", "src/multicubic/rectilinear.rs", "src/multilinear/regular_recursive.rs", "src/multilinear/rectilinear_recursive.rs", "src/multicubic/regular_recursive.rs", "src/multicubic/rectilinear_recursive.rs"]}
{"id": "C108", "title": "The Python interface writes to nothing but `out`, and objects keep their own copy of the data", "statement": "Whether `eval` of a class or `interpn` returns or raises, no element of any numpy buffer changes except elements of the `out` that was passed. The observation arrays and the arrays of the object hold afterwards what they held before, whatever `out` is: if `out` is read-only or shares an element with one of them, `eval` raises and nothing is written. Without `out` the returned array lies in a new buffer; with `out` the classes return `out` itself. `new` copies: its arrays lie in new buffers, one each, and any later program - overwriting the arrays the object was made from, making and evaluating other objects, calling `interpn`, catching exceptions - that does not ask for writes into the buffers of the object leaves its results as they were at the time of `new`. `interpn` with a writeable `out` in a buffer of its own, or none, gives what it gives on separate arrays; with an `out` of two or more elements it raises ValueError and memory is unchanged.", "quantifier": "for all memories with any number of buffers, all strided views of them as arguments (overlapping or not), element types, methods, sizes, floating-point arithmetic, borrow checks as documented by rust-numpy, and all programs of any length", "why_tests_cant": "A statement about all programs and all ways arguments can overlap in memory; a test sees one layout, and stale or shared buffers show only under particular interleavings.", "anchors": ["src/interpn/__init__.py", "src/interpn/multilinear_regular.py", "src/interpn/multilinear_rectilinear.py", "src/interpn/nearest_regular.py", "src/interpn/nearest_rectilinear.py", "src/interpn/multicubic_regular.py", "src/interpn/multicubic_rectilinear.py", "src/interpn/serialization.py", "src/python.rs"]}
{"id": "C109", "title": "Without overflow checks the crate computes the same wherever the checked build does not panic", "statement": "Overflow checks are switched on in the crate's own profiles only; a release build of a program that uses the crate wraps integers instead. For every public function - constructors, one point, batches, the module functions with and without allocation, check_bounds, linspace, the 1-D grids and interpolators - if the checked build returns a value or an error then the unchecked build returns the same value or error and leaves the same output buffer. For an interpolator that the checked build constructs, the two evaluate alike at every observation (including where both panic), with one exception: cubic interpolation on regular grids at an observation whose cell number is isize::MIN.", "quantifier": "for all shapes, grids, values, observations, output buffers, both fma settings, and any floating-point arithmetic whatsoever", "why_tests_cant": "The crate's tests run under its own profiles, with checks on; a wrap in a downstream build is invisible to them, and no set of inputs shows its absence.", "anchors": ["Cargo.toml", "src/lib.rs", "src/multilinear/regular.rs", "src/multilinear/rectilinear.rs", "src/multicubic/regular.rs", "src/multicubic/rectilinear.rs", "src/nearest/regular.rs", "src/nearest/rectilinear.rs", "src/one_dim/mod.rs", "src/utils.rs"]}
{"id": "C110", "title": "Without overflow checks a constructor compares the number of values with the product of the dimensions modulo 2^64", "statement": "In a build without overflow checks each of the ten constructors reports `Dimension mismatch` exactly when the number of values differs from the product of the dimensions modulo 2^64; its other errors and acceptance are as in the checked build, and where the product fits in usize the builds construct alike. Hence a shape whose product overflows can be accepted: with dimensions 274177 and 67280421310721 (product 2^64 + 1) and one value, nearest-neighbor interpolation in f64 returns that value at the last node and panics at others. Further places where only the checked build panics: `linspace` with zero points returns an empty list; a regular 1-D grid without values is constructed and panics when sampled; and cubic interpolation on a regular grid with cell number isize::MIN extrapolates from the upper end of the axis, in f64 giving -3*2^62 where the neighboring observation gives 0.", "quantifier": "for all shapes, steps, grids and values (constructors, linspace, 1-D grids); the f64 statements are single witnesses", "why_tests_cant": "The failing shapes exceed any memory a test can allocate for an honest table, and the crate's tests run with checks on.", "anchors": ["Cargo.toml", "src/multilinear/regular.rs", "src/multilinear/rectilinear.rs", "src/multicubic/regular.rs", "src/multicubic/rectilinear.rs", "src/nearest/regular.rs", "src/nearest/rectilinear.rs", "src/one_dim/mod.rs", "src/utils.rs"]}
{"id": "C111", "title": "Differences and derivatives of the interpolant approximate those of the sampled function", "statement": "Over the reals, if the values sample a function F, then moving coordinate j of an in-grid observation changes the multilinear result by as much as it changes F, up to at most (M/2 h_j + sum over k of L_k/8 h_k^2) times the distance moved, where M bounds the second derivative of F along axis j, L_k the rate at which the second derivative along axis k varies with coordinate j, and h the cell widths; the multicubic result likewise with a factor of second order in the cell widths (third derivatives). The move may cross any number of cells. Hence every one-sided derivative of the multilinear interpolant along an axis is first-order accurate, and the gradient of the multicubic interpolant, which is continuously differentiable, is second-order accurate in the whole grid including its end cells.", "quantifier": "all functions with the stated derivatives, both grid kinds, mesh ratios, in-grid points and targets, axes and dimensions, fma settings, both values of linearize_extrapolation", "why_tests_cant": "Accuracy of the values (C64, C65) says nothing about the slopes: an error of h^2 that oscillates within a cell ruins them. Tests would have to differentiate numerically at every point of every grid.", "anchors": ["src/multilinear/*.rs", "src/multicubic/*.rs"]}
{"id": "C112", "title": "Python interpn and the Python classes agree", "statement": "For arrays of one float type: if `interpn` treats the grids as regular, it returns element for element the same array as `eval` of the regular-grid class made with `new` from the sizes, first entries and first spacings of the grids; otherwise the same array as the rectilinear class made from the grids. Where one raises, the other raises the same exception (no observation arrays, more than 8 of them, wrong lengths, too few nodes, unrepresentable coordinates).", "quantifier": "all grids of at least two entries whose class object can be made, all values, observations (any number of arrays, any lengths), methods, both settings of linearize_extrapolation and assume_regular, both float types, any arithmetic", "why_tests_cant": "The two paths share no Python code: grid detection, dispatch and conversion are written twice. Tests compare them on a few grids to a tolerance and do not compare exceptions.", "anchors": ["src/interpn/__init__.py:interpn", "src/interpn/multilinear_regular.py", "src/interpn/multilinear_rectilinear.py", "src/interpn/multicubic_regular.py", "src/interpn/multicubic_rectilinear.py", "src/interpn/nearest_regular.py", "src/interpn/nearest_rectilinear.py"]}
{"id": "C113", "title": "A passed bounds check limits what interpolation can return", "statement": "If `check_bounds` with tolerance atol flags no axis of a batch, every observation of the batch can be evaluated, and the multilinear result stays within the range of the stored values widened about its middle by the factor (1 + 2 lam)^N, where atol is at most lam end cells on each axis; with tolerance zero it stays in the range. For multicubic interpolation the factor is (1 + r^2/(2(1+r)) + 8 r lam (1 + lam))^N with r the largest ratio of adjacent cell widths. In f64 and f32 the multilinear and multicubic results of finite observations are finite and satisfy the same bounds up to an explicit rounding error, although both the check and the evaluation round.", "quantifier": "all valid grids (regular and rectilinear), values, batches, tolerances and previous flags, evaluators, fma settings, numbers of axes; exact arithmetic, and f64 and f32 in the ranges of C100 (multilinear) and C93 (multicubic)", "why_tests_cant": "It links two functions that share no code over all batches and tolerances, and the floating-point form concerns observations for which the check itself rounds.", "anchors": ["src/multilinear/regular.rs:check_bounds", "src/multilinear/rectilinear.rs:check_bounds", "src/multilinear", "src/multicubic"]}
{"id": "C114", "title": "Batches may be split, reordered and repeated", "statement": "Every `interpn` entry point of the crate, and every instantiation of the Python function and of the class method `eval`, evaluates a batch as if each observation were given alone: evaluating a batch in two parts gives the two parts of the result (or the failure of the first part that fails, with the buffer entries written before it), and selecting, reordering or repeating observations by index selects, reorders or repeats the results.", "quantifier": "all grids, values, batches and buffers, valid or not, all numbers of axes, fma settings, methods and options; any arithmetic (no law of floating-point numbers is used); all splits of a batch and all index lists", "why_tests_cant": "Bit-identical results for every split and order of every batch, also for data that makes an evaluation fail half-way, exclude any state carried between observations (such as a cached cell index).", "anchors": ["src/multilinear", "src/multicubic", "src/nearest", "src/interpn/__init__.py:interpn", "src/interpn/multilinear_regular.py:eval"]}
{"id": "C115", "title": "The cost of an observation depends only on the shape of the grid", "statement": "Every successful `interp` does, for each observation, the same work wherever the observation lies (in the grid, on a node, far outside, NaN) and whatever the grid and values hold: with N axes the linear methods read 2^N stored values and interpolate along one axis 2^N - 1 times, the cubic ones 4^N and (4^N - 1)/3, the nearest ones read 1; rectilinear methods compare the observation with exactly sum of (ceil(log2 n) + 1) coordinates, regular ones with none; and the number of passes through loop bodies is the stated function of N. The one-dimensional interpolators read 2 values, search a rectilinear grid with ceil(log2 n) + 1 comparisons and a regular one with none, and interpolate in one cell once (linear), once unless the observation is outside the grid (linear with hold), or never (the others). A batch that fails does at most that work.", "quantifier": "all grids the constructors accept, all values, observations and batch lengths, all numbers of axes (for the flat N-d evaluators N > 0), both fma settings; any arithmetic", "why_tests_cant": "An exact operation count for every observation and every number of axes: a benchmark samples inputs, and a fast path or slow path for some observations (a cached cell, a linear search outside the grid) would only show on the inputs it affects.", "anchors": ["src/lib.rs:performance table", "src/multilinear/regular.rs:MultilinearRegular (Timing)", "src/multilinear", "src/multicubic", "src/nearest", "src/one_dim"]}
{"id": "C116", "title": "Small errors in all inputs at once change results little", "statement": "If the nodes of a grid, the stored values and the observation are all slightly wrong (nodes and observation by at most ε times the smallest cell width w of the wrong grid, values by at most D, wrong values at most M in size), the multilinear result changes by at most ((1+4ε)^N - 1) M + D, the multicubic result on a grid whose spacing changes by at most ρ between neighbours by at most ((L + 2ε(7+ρ+16ε))^N - L^N) M + L^N D with L = 1 + ρ²/(2(1+ρ)), and nearest-neighbour interpolation returns the value at a node that no other true node beats by more than twice the sum of the two displacements. The wrong observation may fall in another cell or outside the wrong grid.", "quantifier": "all N, all valid grids of either kind (the right and the wrong grid may be of different kinds), all values, all true observations in the grid, both implementations of each method and both fma settings; exact arithmetic", "why_tests_cant": "A bound on the joint effect of every admissible perturbation of every input: a test perturbs some inputs by some amounts, and the hard cases are those where the perturbation moves the observation into another cell, where another polynomial applies.", "anchors": ["src/multilinear", "src/multicubic", "src/nearest"]}
{"id": "C117", "title": "Converting grid, values and observations to f32 loses little", "statement": "Interpolating with grid, values and observation all rounded from f64 to f32 gives a result within 44 N (1+κ) 2^-24 M + 5 N 2^-150 (multilinear, rectilinear), 200 N (1+κ) 2^-24 M + 6 N 2^-150 (multilinear, regular), 3300 N ρ (1+κ) 2^-24 L M (multicubic, rectilinear, L as in C116), 9000 N (1+κ) 2^-24 (5/4)^N M (multicubic, regular) of the one in f64, where κ bounds the size of the nodes in units of the smallest cell width (the step) and M the size of the values; nearest-neighbour interpolation returns the conversion of the value at a node that no other f64 node beats by more than 12 (1+κ) 2^-24 cell widths (rectilinear) or 41 (1+κ) 2^-24 steps (regular). No result overflows or becomes NaN.", "quantifier": "all N (at most 1000, cubic at most 8), all valid f64 grids with cell widths that are normal numbers of f32 and κ small against 2^24 / N, all finite values up to 2^123 (cubic: 2^39, on regular grids 2^29), all observations in the grid, both implementations and fma settings on either side; IEEE 754 binary32 and binary64", "why_tests_cant": "Compares two floating-point computations in different formats for every input; tests compare some, and the conversion can move an observation across a node, or make the grid's last node smaller than the observation.", "anchors": ["src/interpn/__init__.py:dtype dispatch", "src/interpn/serialization.py:59-70", "src/multilinear", "src/multicubic", "src/nearest"]}
{"id": "C118", "title": "On fixed-point data floating-point interpolation is exact", "statement": "If the grid, the values and the observation are fixed-point numbers (multiples of a power of two, such as integers) with cell widths (rectilinear multilinear and nearest) or steps (regular) that are powers of two, and the format has enough digits for the numbers that arise, then the result of multilinear interpolation, and of multicubic interpolation on regular grids, and of the one-dimensional linear interpolators on both grid types, is exactly the number that the same evaluation yields in exact arithmetic, without any rounding; it is therefore the same for both implementations and with or without fused multiply-add. Nearest-neighbour interpolation then returns the value at the exactly nearest node, the lower one at midpoints.", "quantifier": "all N; all binary formats (f32 and f64 among them); all valid grids as described, all values with b binary places and size at most B, all observations in the grid range that are multiples of the unit of their axis; room for b + sum of s_k places and size 2B (multilinear), b + sum of (1 + 3 s_k) places and size 32 (5/4)^(N-1) B (multicubic), where 2^s_k is the largest cell width in units of axis k; for the one-dimensional interpolators additionally room for the slopes, b + s + j places and size 2B/2^j, where 2^j is the unit of the axis", "why_tests_cant": "Exactness for all inputs of a class depends on every intermediate result being representable; tests on round numbers see the final results of a few of them.", "anchors": ["src/multilinear/rectilinear.rs:interp_one", "src/multilinear/regular.rs:interp_one", "src/multicubic/regular.rs:interp_inner", "src/multicubic/mod.rs:normalized_hermite_spline", "src/nearest/rectilinear.rs", "src/nearest/regular.rs", "src/one_dim/linear.rs", "src/one_dim/mod.rs"]}
{"id": "C119", "title": "Nearest neighbour far outside the grid, and at infinity, in IEEE f32 and f64", "statement": "Nearest-neighbour interpolation on a rectilinear grid of finite nodes returns, at every observation, the value stored at some node, bit for bit. On each axis this is the first node if the observation is at or below it (minus infinity included) and the last node if it is at or above it (infinity included), even where the computed distance or the computed position in the cell overflows; at any finite observation no other node is closer by more than 7u cell widths. On a regular grid the same holds for every finite observation up to 2^61 steps in size, with slack 7(1+κ)u steps.", "quantifier": "all N, all valid grids with nodes up to 2^1022 (f32: 2^126) resp. up to κ steps with κ small against 1/u, all stored values including NaN, all observations (regular: up to 2^61 steps and 2^1020, f32: 2^124), fma on and off; IEEE 754 binary32 and binary64", "why_tests_cant": "Whether overflow or rounding in the weight can make the code pick the inner node of an end cell depends on every pair of grid and observation; tests sample a few moderate ones.", "anchors": ["src/nearest/rectilinear.rs: interp_one, get_loc", "src/nearest/regular.rs: interp_one, get_loc"]}
{"id": "C120", "title": "Cropping a table changes no bit of the result", "statement": "Keeping only a range of nodes on each axis of a rectilinear grid, with the values that belong to them, gives the same floating-point result, bit for bit, as the whole table at every observation above the first node kept and not above the last one (multicubic: above the second and not above the last but one), and also beyond on a side where the range reaches the end of the axis; for multilinear, multicubic, nearest-neighbour and the five 1-D interpolators, infinities and NaN in data and observations included. On a regular grid the same holds for dropping nodes at the upper end, at every observation whose computed cell number is not affected. At the first node kept itself the result may be rounded differently.", "quantifier": "all N, all sorted grids, tables, ranges of nodes, observations in the range, fma on and off, both evaluators; IEEE 754 in any binary format (regular grids: any arithmetic)", "why_tests_cant": "A tile cut from a table is found by another bisection, with other clamping and saturation flags; whether the same nodes enter the formula has to hold for every range and observation, and a difference in the last bit escapes a comparison with tolerance.", "anchors": ["src/multilinear/rectilinear.rs: get_loc, interp_one", "src/multicubic/rectilinear.rs: get_loc, interp_one", "src/nearest/rectilinear.rs: get_loc", "src/one_dim/mod.rs: RectilinearGrid1D::at", "src/multilinear/regular.rs: get_loc", "src/multicubic/regular.rs: get_loc", "src/nearest/regular.rs: get_loc"]}
{"id": "C121", "title": "In floating point an axis on which the data do not depend can be left out", "statement": "If the values of a table are the same for every index of one axis, the interpolated result is the same number (the sign of a zero left open) as that of the smaller table without this axis, whenever the latter is finite: rounding along the redundant axis does not occur, wherever the observation lies on it, inside or outside. For multilinear and multicubic interpolation, as long as the positions (multicubic on rectilinear grids: and the ratios of adjacent cell widths) computed on that axis are finite; for nearest-neighbour interpolation bit for bit and without any condition.", "quantifier": "all N, axes, grids, tables, observations, fma on and off, both evaluators; IEEE 754 in any binary format (nearest: any arithmetic)", "why_tests_cant": "The claim is about exact equality of two different computations with different numbers of roundings, for every table and observation; a test compares a few, with a tolerance.", "anchors": ["src/multilinear/rectilinear.rs: interp_one", "src/multilinear/regular.rs: interp_one", "src/multicubic/rectilinear.rs: interp_one, interp_inner", "src/multicubic/regular.rs: interp_one, interp_inner", "src/nearest/regular.rs: interp_one", "src/nearest/rectilinear.rs: interp_one"]}
{"id": "C122", "title": "An N-dimensional result is, bit for bit, that of interpolating along the first axis and then the smaller table", "statement": "Interpolating every line of a table along its first axis with a one-dimensional call, and then interpolating the (N-1)-dimensional table of these results at the remaining coordinates, gives bit for bit the result of the N-dimensional call. A user may therefore fix the first coordinate once and reuse the smaller table. The axes are used in this order: contracting another axis first can round differently. On regular grids the two calls agree also if they fail because of another axis.", "quantifier": "all N, grids, tables, observations, fma on and off, all evaluators (with fma: of the same kind), all six functions; any arithmetic", "why_tests_cant": "Bit equality of two different sequences of calls for every table, observation and arithmetic; a test compares a few with a tolerance and cannot see the order of the axes.", "anchors": ["src/multilinear/rectilinear.rs: interp_one", "src/multilinear/regular.rs: interp_one", "src/multicubic/rectilinear.rs: interp_one, interp_inner", "src/multicubic/regular.rs: interp_one, interp_inner", "src/nearest/regular.rs: interp_one", "src/nearest/rectilinear.rs: interp_one"]}
{"id": "C123", "title": "The interpolants are the only functions with the stored values and the advertised shape along each axis", "statement": "In exact arithmetic, for every table there is exactly one function on the whole space that takes the stored values at the nodes and is, with all other coordinates fixed anywhere, affine along each axis on every cell (the outermost cells reaching beyond the grid): multilinear interpolation returns its values. Likewise there is exactly one function that takes the stored values and is along each axis, on every cell, a cubic (in the first and last cell a quadratic) whose derivative at every interior node is the centered difference of its own values, continued beyond the grid by the end polynomial or by the tangent: multicubic interpolation without resp. with linearize_extrapolation returns its values. So a user who knows these few facts knows every result.", "quantifier": "all dimensions, grids of both kinds, tables, observations inside and outside, both evaluators, fma on and off; on regular grids, observations whose cell number fits isize, which is automatic in range (C17 covers the others)", "why_tests_cant": "Existence and uniqueness of a function on all of space, and equality with it at every point; a test samples points.", "anchors": ["src/multilinear/regular.rs: interp_one", "src/multilinear/rectilinear.rs: interp_one", "src/multicubic/regular.rs: interp_one, interp_inner", "src/multicubic/rectilinear.rs: interp_one, interp_inner", "src/multicubic/mod.rs: centered_difference_nonuniform, normalized_hermite_spline"]}
{"id": "C124", "title": "Measuring the values in another power-of-two unit multiplies the result by exactly this factor", "statement": "If every stored value is multiplied by 2^k, the result of an interpolation in floating point is multiplied by exactly 2^k, with the same rounding errors, unless it overflows or some intermediate result has digits below the subnormal range. The relative accuracy of a result therefore does not depend on the unit or the size of the values, and a user may rescale a table to avoid overflow. Nearest-neighbour interpolation, and the one-dimensional interpolators that return a stored value, need no condition.", "quantifier": "all N, IEEE formats, grids, tables, scalings, observations inside and outside the grid, fma on and off, all evaluators, all six functions and the five one-dimensional interpolators on both grid types", "why_tests_cant": "Bit equality after scaling for every table, unit and format; a test tries a few values and cannot find the threshold below which underflow breaks it.", "anchors": ["src/multilinear/rectilinear.rs: interp_one", "src/multilinear/regular.rs: interp_one", "src/multicubic/rectilinear.rs: interp_inner", "src/multicubic/regular.rs: interp_inner", "src/multicubic/mod.rs: centered_difference_nonuniform, normalized_hermite_spline", "src/nearest/regular.rs: interp_one", "src/nearest/rectilinear.rs: interp_one", "src/one_dim/linear.rs", "src/one_dim/hold.rs"]}
{"id": "C125", "title": "A repeated node on a rectilinear axis is a jump", "statement": "A rectilinear axis that is sorted but has a repeated node is accepted (only the first two nodes are compared). Multilinear, nearest-neighbour and 1-D interpolation then treat it as a jump: at observations up to and including the node the result is, bit for bit, that of the part of the table below the jump, and above the node that of the part above it. A cell of width zero is never used, so there is no division by zero, unless the last two nodes coincide, when results above the last node are infinite or NaN. Multicubic interpolation does not allow a repeated node among the four nodes of its footprint.", "quantifier": "all N, all sorted axes with any repetitions, tables, observations (NaN and infinities included), fma on and off, all evaluators; IEEE 754 in any binary format", "why_tests_cant": "Which of several equal nodes the bisection returns has to be known for every axis, every number of repetitions and every observation, and a sample that is not exactly at or next to the node does not show it.", "anchors": ["src/multilinear/rectilinear.rs: new, get_loc", "src/nearest/rectilinear.rs: get_loc", "src/one_dim/mod.rs: RectilinearGrid1D::at", "src/multicubic/rectilinear.rs: get_loc, interp_inner"]}
{"id": "C126", "title": "Superposition in floating point", "statement": "If a table is a linear combination of other tables (a sum, a difference, a multiple, a weighted mean of any number of them), up to an error of at most D in each entry, its f64 or f32 result inside the grid is the same combination of their results up to D (multicubic: L^N D with L = 1 + p^2/(2(1+p)) and p the largest ratio of adjacent cells, (5/4)^N D on regular grids), the rounding error of the result and the rounding errors of their results times the coefficients. All results are finite. It does not matter whether a user combines tables first or results afterwards. The agreement is not bit for bit.", "quantifier": "all numbers of tables, coefficients, tables, finite observations in the grid, evaluators, fma on and off, f64 and f32, magnitudes and dimensions as in C81 and C82", "why_tests_cant": "A bound for every combination of tables and coefficients, with the rounding errors of the combined table; tests compare a few sums with a tolerance chosen by trial.", "anchors": ["src/multilinear/rectilinear.rs: interp_one", "src/multilinear/regular.rs: interp_one", "src/multicubic/rectilinear.rs: interp_one", "src/multicubic/regular.rs: interp_one"]}
{"id": "C127", "title": "At the nodes of a rectilinear grid, nearest-neighbour returns the table bit for bit and multilinear nearly so", "statement": "In any IEEE binary format, nearest-neighbour interpolation (N-d and Nearest1D) at a node of an increasing rectilinear grid of finite nodes returns the stored value of that node bit for bit, NaN and infinities included, even if the width of a cell overflows. Hence evaluating at the points listed by meshgrid writes the table into the output buffer. Multilinear interpolation at a node is finite and within ((1+3u+2u^2)^n - 1) M of the stored value, at most 8nuM, where M bounds the stored values and n counts the axes on which the node is not the first one; it is exact at the first node of all axes. No condition on the differences of stored values or the widths of cells, no term for underflow.", "quantifier": "all formats, dimensions, increasing grids of finite nodes, tables, nodes; for multilinear: both evaluators, fma on and off, magnitudes below half (nodes) or a quarter (values) of the largest float", "why_tests_cant": "The weight computed at a node is (b-a)/(b-a), which is exactly 1, or NaN if the width overflows; that the right node is chosen in all cases, and how the one rounding per axis adds up, needs a proof over all floats.", "anchors": ["src/nearest/rectilinear.rs: interp_one", "src/one_dim/hold.rs: Nearest1D::eval_one", "src/multilinear/rectilinear.rs: interp_one", "src/utils.rs: meshgrid"]}
{"id": "C128", "title": "In floating point the node chosen by the staircase interpolators never moves back when the observation grows", "statement": "In any IEEE binary format: if every coordinate of y is at least that of x, then nearest-neighbour interpolation at x and y returns the values stored at two nodes i <= j (on every axis), the same two for every table. On rectilinear grids observations may be infinite and nodes other than the first may be repeated; on regular grids the statement holds whenever both evaluations succeed. Hence a table that does not decrease along any axis gives results that do not decrease. Left1D and Right1D have the same property on both kinds of grid. Nearest1D has it on rectilinear grids up to the last node; above the grid it can step back (concrete f64 witness).", "quantifier": "all formats, dimensions, sorted grids, steps, pairs of ordered observations (infinities included on rectilinear grids), all tables", "why_tests_cant": "A step back would come from rounding of a position near one half or near a cell boundary; it would show up at a few pairs of adjacent floats among 2^128.", "anchors": ["src/nearest/rectilinear.rs: interp_one, get_loc", "src/nearest/regular.rs: interp_one, get_loc", "src/one_dim/hold.rs", "src/one_dim/mod.rs: RegularGrid1D::index, RectilinearGrid1D::index"]}
{"id": "C129", "title": "Exchanging grid and values inverts a strictly increasing one-dimensional table", "statement": "In exact arithmetic, for a one-dimensional grid (regular or rectilinear) with strictly increasing values: linear interpolation at x (multilinear with N = 1, or Linear1D) succeeds with some y, and linear interpolation on the rectilinear grid of the values, with the nodes as values, at y gives back x, inside and outside the grid. With LinearHoldLast1D it gives back x clamped to the grid range. Hence on a rectilinear grid every number is the interpolated value at exactly one observation. In f64 and f32, on a rectilinear grid with nodes up to A and values up to M in size, if the first and last increments of the values exceed the rounding bound 26 u M of the first lookup and no cell is wider than L times the increment of the values over it, the observation comes back up to 78 u A + 26 L u M and a few subnormal units.", "quantifier": "all ordered fields with floor, grids, strictly increasing tables, observations (those with a representable cell number, on regular grids), evaluators, fma on and off", "why_tests_cant": "The two interpolations search different grids and must agree on the cell for every real observation, also beyond the ends; a test compares finitely many.", "anchors": ["src/multilinear/rectilinear.rs", "src/multilinear/regular.rs", "src/one_dim/linear.rs"]}
{"id": "C130", "title": "The decimal text of a dumped interpolator loses nothing", "statement": "The arrays of an interpolator object are dumped as decimal text (json.dumps of a list of floats) and loaded by reading that text. For every list of float64 - including subnormals, both zeros, infinities and NaN - reading the text gives exactly the list; hence every constructed interpolator, float32 or float64, regular or rectilinear, is loaded as it was dumped, with no assumption on the text format. Different data have different texts. The text is printable ASCII without quotes or backslashes, so it stands unchanged inside the outer JSON string. Seventeen significant digits are always enough, sixteen are not; a text by another program whose digits are within a relative error of 2^-54 is read as the same float; for float32 arrays, which are read in float64 and rounded again, 2^-26 (nine correct digits) is enough.", "quantifier": "all lists of IEEE binary64 data, all constructed objects of the six classes, all choices of shortest digits by float.__repr__", "why_tests_cant": "There are 2^64 floats and the notation changes with magnitude and digit count; a round trip is tested on a handful of values.", "anchors": ["src/interpn/serialization.py"]}
{"id": "C131", "title": "A dumped interpolator is restored from its JSON document in any layout, and only by a class with the same fields", "statement": "model_validate_json applied to what model_dump_json wrote gives back the same interpolator, for all six classes. The same holds for every other text of that document: any white space between the tokens and any order of the fields, at every level. The class itself is not written: a document is loaded by every class of the same grid kind with the same fields, as that class called with the dumped fields (a multilinear dump is accepted by the nearest-neighbour class and vice versa, subject to the checks of that class). A cubic document is refused by the other classes and theirs by the cubic class, a document of the other grid kind is refused, and so is every document with an unknown or a missing field, every truncated document and every document followed by anything but white space. A document whose dims contain an array or an object is refused.", "quantifier": "all constructed objects of the six classes, all layouts of their documents, all choices of shortest digits; for the refusals all JSON objects with an unknown or missing field", "why_tests_cant": "Tests dump and load a few objects in the compact layout of the library; layouts, field orders, sizes and data are unbounded.", "anchors": ["src/interpn/serialization.py", "src/interpn/multilinear_regular.py", "src/interpn/multilinear_rectilinear.py", "src/interpn/nearest_regular.py", "src/interpn/nearest_rectilinear.py", "src/interpn/multicubic_regular.py", "src/interpn/multicubic_rectilinear.py"]}
{"id": "C132", "title": "Integrals of the interpolants are quadrature rules on the table", "statement": "In exact arithmetic, integrating the interpolant over the whole grid gives a quadrature rule on the stored table, applied axis by axis. Multilinear and nearest-neighbour interpolation both integrate to the trapezoid rule, so they conserve the same total. Multicubic interpolation integrates to the trapezoid rule plus, per cell, one twelfth of the squared width times the drop of the node slope; on a regular grid the corrections cancel inside the axis and the result is Gregory's rule with end weights 3/8, 7/6, 23/24. The 1-D left and right step interpolators integrate to the left and right Riemann sums, the other 1-D interpolators to the trapezoid rule.", "quantifier": "all dimensions, grids of either kind, tables, both evaluators, fma or not, any function that agrees with the interpolator inside the grid", "why_tests_cant": "An integral is a limit over uncountably many evaluations; tests can sample it on a few grids only.", "anchors": ["src/multilinear/regular.rs", "src/multilinear/rectilinear.rs", "src/multicubic/regular.rs", "src/multicubic/rectilinear.rs", "src/nearest/regular.rs", "src/nearest/rectilinear.rs", "src/one_dim/linear.rs", "src/one_dim/hold.rs"]}
{"id": "C133", "title": "With fma the flattened and recursive evaluators agree bit for bit, but for three exceptions", "statement": "With the fma feature the flattened and the recursive evaluators of a kind place their fused multiply-adds differently, yet their results are the same floats except in three situations. Multicubic on a regular grid: the same in any arithmetic where no computed cell number is negative; elsewhere the same whenever the recursive result is finite. Multicubic on a rectilinear grid: the same whenever the flattened result is finite, provided the extrapolation is not linearized or the observation is above the first node and not above the last on every axis. Multilinear on a regular grid: the same everywhere, errors included, if step times node number is a float for every node. The exceptions occur: an overflow of twice the boundary difference makes the recursive regular cubic infinite, or the flattened rectilinear cubic NaN, where the other evaluator is finite; linearized extrapolation on a rectilinear grid differs; multilinear on a regular grid with step 1/10 differs.", "quantifier": "all dimensions, formats, grids, tables and observations; fma or not; both evaluators", "why_tests_cant": "Test suites compare the evaluators on samples up to a tolerance and in one build; equality of every float result needs the argument that doubling is exact.", "anchors": ["src/multicubic/regular.rs:474-623", "src/multicubic/regular_recursive.rs:470-610", "src/multicubic/rectilinear.rs:413-545", "src/multicubic/rectilinear_recursive.rs:385-539", "src/multilinear/regular.rs:331-339", "src/multilinear/regular_recursive.rs:308-313"]}
{"id": "C134", "title": "Multicubic interpolation keeps monotone data monotone if neighbouring slopes do not differ too much", "statement": "In exact arithmetic, along a line parallel to an axis, multicubic results never decrease if the results at the nodes of that line (in one dimension: the table) do not decrease, the slopes between neighbouring nodes differ by a factor of at most 3, and the second slope from either end of the axis is at most twice the first. On regular grids factors of 5, and 3 at the ends, suffice. This holds inside the grid, and everywhere with linearize_extrapolation. Without these conditions monotone data can give decreasing results: the table 0, 0, 1, 1 gives -1/8 at 1/2; increments 6, 1, 6 and increments 1, 4, 4 fail as well, the latter in the extrapolation below the grid. In f64 and f32, for a one-dimensional table meeting the condition, a result at a larger observation inside the grid is smaller by at most twice the rounding bound of C82.", "quantifier": "all dimensions, grids of either kind, tables, axes, pairs of points on a line; both evaluators, fma or not; on regular grids, observations whose cell number fits isize", "why_tests_cant": "Relational over all pairs of points and all tables with bounded slope ratios.", "anchors": ["src/multicubic/regular.rs", "src/multicubic/rectilinear.rs", "src/multicubic/mod.rs"]}
{"id": "C135", "title": "Nearest, linear and cubic results differ by at most the local variation of the table", "statement": "In exact arithmetic, inside the grid: the nearest-neighbor result differs from the multilinear result by at most half the sum over the axes of the largest difference between neighbouring table values along the axis. The multicubic result differs from the multilinear result on a regular grid by at most (5/4)^(N-1) times the sum over the axes of one eighth of the largest second difference of the table along the axis. On any grid whose adjacent cells differ in width by a factor of at most rho, it differs by at most (1 + rho^2/(2(1+rho)))^(N-1) times the sum over the axes of rho/(4(1+rho)) times the widest cell times the largest change of slope from cell to cell. In one dimension the regular bounds are attained. In f64 and f32 the cubic and linear results keep these bounds up to the sum of the rounding bounds of C81 and C82, and the nearest-neighbor and linear results up to the rounding bound of C81 and the factor 1 + 7u (1 + 7(1+k)u on regular grids with nodes at most k steps from 0) that C83 allows for the choice near midpoints.", "quantifier": "all dimensions, grids of either kind, tables, observation points inside the grid; both evaluators, fma or not, linearize_extrapolation or not", "why_tests_cant": "A bound over all tables and points comparing three separately implemented methods; a test compares them on one table.", "anchors": ["src/multilinear/regular.rs", "src/multilinear/rectilinear.rs", "src/multicubic/regular.rs", "src/multicubic/rectilinear.rs", "src/nearest/regular.rs", "src/nearest/rectilinear.rs"]}
{"id": "C136", "title": "Sweeping an observation along an axis adds no oscillation beyond the table's", "statement": "In exact arithmetic, let an observation move monotonically along one axis through any finite sequence of points, the other coordinates fixed, and let V bound the total variation (the sum of absolute differences between neighbours) of every line of the table parallel to that axis. Inside the grid the total variation of the sequence of multilinear results is at most V, so ripples and spikes cannot appear between nodes. For nearest neighbor it is at most V too, also for points outside the grid. For multicubic interpolation inside the grid it is at most 4 (5/4)^(N-1) V on a regular grid, and (1 + 6 rho^2/(1+rho)) (1 + rho^2/(2(1+rho)))^(N-1) V on a grid whose adjacent cells differ in width by a factor of at most rho; a factor of 1 would be wrong for it. On rectilinear grids nearest neighbor keeps the bound V in any IEEE binary format without a rounding term, for finite tables, the observations being possibly infinite. In f64 and f32, multilinear and multicubic interpolation inside the grid exceed the respective bound by at most 2 E for each step of the sweep, E being the rounding error bound of C81 or C82.", "quantifier": "all dimensions, grids of either kind, tables, axes, lengths and spacings of the sweep; both evaluators, fma or not, linearize_extrapolation or not", "why_tests_cant": "The bound holds for sweeps of every length and spacing over every table; a test samples one sweep and cannot see a spike between its points.", "anchors": ["src/multilinear/regular.rs", "src/multilinear/rectilinear.rs", "src/multicubic/regular.rs", "src/multicubic/rectilinear.rs", "src/nearest/regular.rs", "src/nearest/rectilinear.rs"]}
{"id": "C137", "title": "Every result is a fixed weighted sum of the stored values", "statement": "In exact arithmetic, for every grid and observation there are weights, one per stored value, that do not depend on the values: the result for any table is the sum of its entries times the weights. The weight of an entry is the result for the table that is 1 at that entry and 0 elsewhere, so a user can build the matrix that maps tables to results by interpolating unit tables, and the weight is the sensitivity of the result to the entry. The weights add up to 1 and (multilinear and multicubic) the weighted mean of the node coordinates is the observation, also outside the grid. Multilinear weights vanish outside the 2^N corners of the cell and are not negative inside the grid. Multicubic weights vanish outside the at most 4^N nodes around the cell, and inside the grid their absolute values add up to at most (1 + p^2/(2(1+p)))^N with p the largest ratio of adjacent cells, (5/4)^N on regular grids. Nearest neighbor puts weight 1 on one entry. In f64 and f32, computed results inside the grid are finite and within the rounding bounds of C81 and C82 of the weighted sum, with one set of exact weights for all tables.", "quantifier": "all dimensions, grids of either kind, tables, observations inside and outside the grid (on regular grids those whose cell number fits isize), both evaluators, fma or not, linearize_extrapolation or not; in f64 and f32, magnitudes and dimensions as in C81 and C82", "why_tests_cant": "A statement about all tables at once for every grid and observation; a test compares a few tables.", "anchors": ["src/multilinear/regular.rs", "src/multilinear/rectilinear.rs", "src/multicubic/regular.rs", "src/multicubic/rectilinear.rs", "src/nearest/regular.rs", "src/nearest/rectilinear.rs"]}
{"id": "C138", "title": "Refining the grid converges for every continuous function", "statement": "In exact arithmetic, if the values sample a function F, the error of a multilinear result inside the grid is at most the largest change of F between the observation and the corners of its cell; that of a multicubic result is at most (1 + p^2/(2(1+p)))^N times the largest change of F between the observation and the at most 4^N nodes around its cell, p being the largest ratio of adjacent cells; nearest neighbor returns F at a node that is on every axis within half a cell width of the observation. No derivative or Lipschitz constant of F is needed. Hence, over the reals, for every function that is continuous on a box and every tolerance there is a cell width such that on all grids in the box with no wider cells (for multicubic: and ratios of adjacent cells bounded by any constant fixed beforehand) all results inside the grid are within the tolerance of F, functions with kinks included. In f64 and f32, for a table with errors of at most e and a function changing by at most w over a cell (multicubic: over two cells), results inside the grid are finite and within w + e (multicubic: (1 + p^2/(2(1+p)))^N (w + e)) plus the rounding bound of C81 (C82) of the function at the observation; nearest neighbor adds no rounding error at all.", "quantifier": "all continuous functions, boxes, tolerances, dimensions, grids of either kind, observations in the grid, both evaluators, fma or not, linearize_extrapolation or not", "why_tests_cant": "Quantifies over functions and over all fine grids.", "anchors": ["src/multilinear/regular.rs", "src/multilinear/rectilinear.rs", "src/multicubic/regular.rs", "src/multicubic/rectilinear.rs", "src/nearest/regular.rs", "src/nearest/rectilinear.rs"]}
{"id": "C139", "title": "On evenly spaced axes multicubic interpolation is Catmull-Rom interpolation, with parabolas in the end cells", "statement": "In exact arithmetic, a multicubic result in an inner cell (one with a cell on either side on every axis) of either kind of grid is the sum over the 4^N nodes c-1, ..., c+2 of the stored value times one weight per axis; the weights are explicit rational functions of the relative position t in the cell and the widths of the cell and its two neighbours. On regular grids these are the Catmull-Rom weights -t(1-t)^2/2, (2-5t^2+3t^3)/2, t(1+4t-3t^2)/2, -t^2(1-t)/2 on every inner cell, and on the first and last cell the weights of the parabola through the first or last three nodes; the formula also holds beyond the ends when linearize_extrapolation is off. In the middle of an inner cell the weights are -1/16, 9/16, 9/16, -1/16. In f64 and f32 the computed results on regular grids differ from the explicit sum of the stored values by at most the rounding bound of C82.", "quantifier": "all grids with at least four nodes per axis, tables, dimensions, observations as described, both evaluators, fma or not, linearize_extrapolation or not", "why_tests_cant": "An identity for all tables and observations; tests compare a few numbers.", "anchors": ["src/multicubic/regular.rs", "src/multicubic/regular_recursive.rs", "src/multicubic/rectilinear.rs", "src/multicubic/rectilinear_recursive.rs", "src/multicubic/mod.rs"]}
{"id": "C140", "title": "Total error of tabulating a function and calling Python interpn or a Python class", "statement": "Let a function F of real variables be tabulated on increasing grids with errors of at most e, and let all observations lie in the grid. Then interpn(..., method='linear') returns an array whose entries are finite and differ from F at their observations by at most sum_k D_k h_k^2 / 8 + e + rounding, if F has second derivatives of at most D_k and cells are at most h_k wide, and by at most w + e + rounding if F changes by at most w over a cell (no derivatives needed). method='cubic' gives the third-order bound with third derivatives, and L^N (w + e) + rounding if F changes by at most w over two cells, L = 1 + p^2/(2(1+p)) for cells with ratios of at most p. method='nearest' gives w + e without any rounding term. The grids are those passed by the caller, whether or not interpn takes them for regular ones. The same bounds hold for every entry returned by eval of the classes MultilinearRegular, MultilinearRectilinear, MulticubicRegular, MulticubicRectilinear, NearestRegular and NearestRectilinear, after constructing an object from arrays whose converted contents form the grid and the table (regular grids: h_k is the step, L = 5/4).", "quantifier": "all functions with the stated bounds, grids, tables, batches of observations in the grid, float32 and float64, fma or not, N up to 8 (nearest: 6)", "why_tests_cant": "Quantifies over functions, grids and observations; tests sample some.", "anchors": ["src/interpn/__init__.py: interpn", "src/interpn/__init__.py: _check_regular", "src/multilinear/regular.rs", "src/multilinear/rectilinear.rs", "src/multicubic/regular.rs", "src/multicubic/rectilinear.rs", "src/nearest/regular.rs", "src/nearest/rectilinear.rs", "src/interpn/multilinear_regular.py", "src/interpn/multicubic_rectilinear.py"]}
