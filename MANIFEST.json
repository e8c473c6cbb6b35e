{
 "claims": [
  {
   "property": "C01",
   "status": "proved",
   "theorems": [
    "Interpn.C01_multilinear_regular",
    "Interpn.C01_multilinear_regular_exact"
   ],
   "note": "Law-free equality of results when the two evaluators use the same arithmetic; _exact versions cover any combination of the fma feature in exact arithmetic."
  },
  {
   "property": "C02",
   "status": "proved",
   "theorems": [
    "Interpn.C02_multilinear_rectilinear",
    "Interpn.C02_multilinear_rectilinear_exact"
   ],
   "note": "As C01 for rectilinear grids."
  },
  {
   "property": "C03",
   "status": "proved",
   "theorems": [
    "Interpn.C03_multicubic_regular",
    "Interpn.C03_multicubic_regular_exact"
   ],
   "note": "As C01 for cubic regular grids."
  },
  {
   "property": "C04",
   "status": "proved",
   "theorems": [
    "Interpn.C04_multicubic_rectilinear",
    "Interpn.C04_multicubic_rectilinear_exact"
   ],
   "note": "As C01 for cubic rectilinear grids."
  },
  {
   "property": "C05",
   "status": "proved",
   "theorems": [
    "Interpn.C05_multilinear_regular",
    "Interpn.C05_multilinear_rectilinear",
    "Interpn.C05_multilinear_regular_recursive",
    "Interpn.C05_multilinear_rectilinear_recursive"
   ],
   "note": "Every constructed multilinear interpolator (flat and recursive, both grid kinds): outcome is never .panic."
  },
  {
   "property": "C06",
   "status": "proved",
   "theorems": [
    "Interpn.C06_nearest_regular",
    "Interpn.C06_nearest_rectilinear"
   ],
   "note": "Both nearest interpolators."
  },
  {
   "property": "C07",
   "status": "proved",
   "theorems": [
    "Interpn.C07_ieee",
    "Interpn.C07_ieee_recursive",
    "Interpn.C07_multicubic_regular",
    "Interpn.C07_multicubic_regular_recursive",
    "Interpn.C07_multicubic_regular_recursive_mismatch",
    "Interpn.C07_multicubic_rectilinear",
    "Interpn.C07_multicubic_rectilinear_recursive"
   ],
   "note": "Regular: exact iff characterisation of panic / Err / Ok; rectilinear always Ok. Contains the isize::MIN finding."
  },
  {
   "property": "C08",
   "status": "proved",
   "theorems": [
    "Interpn.C08_multilinear_regular",
    "Interpn.C08_nearest_regular",
    "Interpn.C08_multicubic_regular",
    "Interpn.C08_multilinear_rectilinear",
    "Interpn.C08_nearest_rectilinear",
    "Interpn.C08_multicubic_rectilinear",
    "Interpn.C08_multilinear_regular_recursive_lengths",
    "Interpn.C08_multilinear_regular_recursive",
    "Interpn.C08_multicubic_regular_recursive_lengths",
    "Interpn.C08_multicubic_regular_recursive",
    "Interpn.C08_multilinear_rectilinear_recursive",
    "Interpn.C08_multicubic_rectilinear_recursive",
    "Interpn.C08_rectilinear_recursive_empty"
   ],
   "note": "RegularNewSpec / RectilinearNewSpec (Spec/Constructors.lean) list outcome per branch; recursive constructors additionally check lengths at run time and panic beyond MAXDIMS."
  },
  {
   "property": "C09",
   "status": "proved",
   "theorems": [
    "Interpn.C09_C10_multilinear_regular",
    "Interpn.C09_C10_multilinear_rectilinear",
    "Interpn.C09_C10_nearest_regular",
    "Interpn.C09_C10_nearest_rectilinear",
    "Interpn.C09_C10_multicubic_regular",
    "Interpn.C09_C10_multicubic_rectilinear",
    "Interpn.C09_C10_multilinear_regular_recursive",
    "Interpn.C09_C10_multilinear_rectilinear_recursive",
    "Interpn.C09_C10_multicubic_regular_recursive",
    "Interpn.C09_C10_multicubic_rectilinear_recursive",
    "Interpn.C09_reorder",
    "Interpn.C09_contents"
   ],
   "note": "One theorem per interpolator: interp satisfies BatchSpec (Spec/Batch.lean); reorder / buffer-content corollaries."
  },
  {
   "property": "C10",
   "status": "proved",
   "theorems": [
    "Interpn.C09_C10_multilinear_regular",
    "Interpn.C09_C10_multilinear_rectilinear",
    "Interpn.C09_C10_nearest_regular",
    "Interpn.C09_C10_nearest_rectilinear",
    "Interpn.C09_C10_multicubic_regular",
    "Interpn.C09_C10_multicubic_rectilinear",
    "Interpn.C09_C10_multilinear_regular_recursive",
    "Interpn.C09_C10_multilinear_rectilinear_recursive",
    "Interpn.C09_C10_multicubic_regular_recursive",
    "Interpn.C09_C10_multicubic_rectilinear_recursive",
    "Interpn.C10_C11_multilinear_regular_entry",
    "Interpn.C10_C11_multilinear_rectilinear_entry",
    "Interpn.C10_C11_nearest_regular_entry",
    "Interpn.C10_C11_nearest_rectilinear_entry",
    "Interpn.C10_C12_multicubic_regular_entry",
    "Interpn.C10_C12_multicubic_rectilinear_entry"
   ],
   "note": "Same theorems: BatchSpec.mismatch / first_err / first_panic fix the outcome and buffer of failing batches."
  },
  {
   "property": "C11",
   "status": "proved",
   "theorems": [
    "Interpn.C11_multilinear_regular_flat",
    "Interpn.C11_multilinear_regular_recursive",
    "Interpn.C11_multilinear_regular_errors",
    "Interpn.C11_multilinear_rectilinear_flat",
    "Interpn.C11_multilinear_rectilinear_recursive",
    "Interpn.C11_multilinear_rectilinear_errors",
    "Interpn.C11_nearest_regular",
    "Interpn.C11_nearest_regular_errors",
    "Interpn.C11_nearest_rectilinear",
    "Interpn.C11_nearest_rectilinear_errors",
    "Interpn.C11_multilinear_regular_recursive_module",
    "Interpn.C11_multilinear_rectilinear_recursive_module",
    "Interpn.C10_C11_multilinear_regular_entry",
    "Interpn.C10_C11_multilinear_rectilinear_entry",
    "Interpn.C10_C11_nearest_regular_entry",
    "Interpn.C10_C11_nearest_rectilinear_entry"
   ],
   "note": "Dispatch to the k-dimensional interpolator for every k, and the error branches; also the stand-alone recursive modules' interpn."
  },
  {
   "property": "C12",
   "status": "proved",
   "theorems": [
    "Interpn.C12_multicubic_regular_flat",
    "Interpn.C12_multicubic_regular_recursive",
    "Interpn.C12_multicubic_regular_errors",
    "Interpn.C12_multicubic_regular_panics",
    "Interpn.C12_multicubic_rectilinear_flat",
    "Interpn.C12_multicubic_rectilinear_recursive",
    "Interpn.C12_multicubic_rectilinear_errors",
    "Interpn.C12_multicubic_rectilinear_panics",
    "Interpn.C12_multicubic_regular_recursive_module",
    "Interpn.C12_multicubic_rectilinear_recursive_module",
    "Interpn.C10_C12_multicubic_regular_entry",
    "Interpn.C10_C12_multicubic_rectilinear_entry"
   ],
   "note": "Dispatch, error branches, and the panicking length mismatches as theorems."
  },
  {
   "property": "C13",
   "status": "proved",
   "theorems": [
    "Interpn.C13_interpn_alloc",
    "Interpn.C13_interpn_alloc_recursive"
   ],
   "note": "AllocSpec for all interpn_alloc functions, including the panic with no observation slices."
  },
  {
   "property": "C14",
   "status": "proved",
   "theorems": [
    "Interpn.C14_multilinear_regular_panics",
    "Interpn.C14_multicubic_regular_panics",
    "Interpn.C14_rectilinear_panics",
    "Interpn.C14_multilinear_regular",
    "Interpn.C14_multicubic_regular",
    "Interpn.C14_multilinear_rectilinear",
    "Interpn.C14_multicubic_rectilinear"
   ],
   "note": "Equality of interp_one and interp for any two capacities; panic beyond capacity."
  },
  {
   "property": "C15",
   "status": "proved",
   "theorems": [
    "Interpn.C15_multilinear_regular",
    "Interpn.C15_multilinear_rectilinear",
    "Interpn.C15_multicubic_regular",
    "Interpn.C15_multicubic_rectilinear",
    "Interpn.C15_nearest_regular",
    "Interpn.C15_nearest_rectilinear"
   ],
   "note": "Result unchanged when values outside the 2-wide (4-wide for cubic) block around the selected cell change; for every method and grid kind."
  },
  {
   "property": "C16",
   "status": "proved",
   "theorems": [
    "Interpn.C16_nearest_regular",
    "Interpn.C16_nearest_rectilinear",
    "Interpn.C16_hold_regular",
    "Interpn.C16_hold_rectilinear"
   ],
   "note": "Nearest and hold-last: every returned value is an element of vals."
  },
  {
   "property": "C17",
   "status": "proved",
   "theorems": [
    "Interpn.C17_ieee_multilinear",
    "Interpn.C17_ieee_multilinear_recursive",
    "Interpn.C17_ieee_nearest",
    "Interpn.C17_exact",
    "Interpn.C17_multilinear_regular",
    "Interpn.C17_multilinear_regular_recursive",
    "Interpn.C17_nearest_regular",
    "Interpn.C17_multilinear_rectilinear",
    "Interpn.C17_multilinear_rectilinear_recursive",
    "Interpn.C17_nearest_rectilinear"
   ],
   "note": "Ok/Err characterisation for multilinear and nearest on both grid kinds."
  },
  {
   "property": "C18",
   "status": "proved",
   "theorems": [
    "Interpn.C18_one_dim",
    "Interpn.C18_multilinear_rectilinear",
    "Interpn.C18_nearest_rectilinear",
    "Interpn.C18_multilinear_rectilinear_recursive",
    "Interpn.C18_multicubic_rectilinear",
    "Interpn.C18_multicubic_rectilinear_recursive",
    "Interpn.C18_comparisons",
    "Interpn.C18_multilinear_rectilinear_any_grid",
    "Interpn.C18_nearest_rectilinear_any_grid",
    "Interpn.C18_multilinear_rectilinear_recursive_any_grid",
    "Interpn.C18_multicubic_rectilinear_any_grid",
    "Interpn.C18_multicubic_rectilinear_recursive_any_grid"
   ],
   "note": "Rectilinear cell selection: law-free statement in terms of the comparison, exact iff on a linear order, footprint, comparison count, 1-D grids."
  },
  {
   "property": "C19",
   "status": "proved",
   "theorems": [
    "Interpn.C19_corner_sum",
    "Interpn.C19_cells_exist"
   ],
   "note": "Exact arithmetic, both grid kinds, flat and recursive: the sum over the 2^N corners of the containing (or nearest) cell; such a cell exists for every observation."
  },
  {
   "property": "C20",
   "status": "proved",
   "theorems": [
    "Interpn.C20_node"
   ],
   "note": "Exact arithmetic, every node including the last ones."
  },
  {
   "property": "C21",
   "status": "proved",
   "theorems": [
    "Interpn.C21_reproduces"
   ],
   "note": "Exact arithmetic, inside and outside the grid, for every representable observation."
  },
  {
   "property": "C22",
   "status": "proved",
   "theorems": [
    "Interpn.C22_range",
    "Interpn.C22_stability"
   ],
   "note": "Exact arithmetic: value between min and max of the 2^N corner values; stability in the values."
  },
  {
   "property": "C23",
   "status": "proved",
   "theorems": [
    "Interpn.C23_continuous"
   ],
   "note": "Over the reals; one continuous function on the whole space agrees with the library wherever evaluation succeeds."
  },
  {
   "property": "C24",
   "status": "proved",
   "theorems": [
    "Interpn.C24_multilinear_linear",
    "Interpn.C24_multicubic_linear",
    "Interpn.C24_multilinear_constant",
    "Interpn.C24_multicubic_constant"
   ],
   "note": "Exact arithmetic, multilinear and multicubic; constants."
  },
  {
   "property": "C25",
   "status": "proved",
   "theorems": [
    "Interpn.C25_multilinear",
    "Interpn.C25_multicubic",
    "Interpn.C25_nearest"
   ],
   "note": "Exact arithmetic; positive rescaling and shift of every axis. Covers error outcomes too."
  },
  {
   "property": "C26",
   "status": "proved",
   "theorems": [
    "Interpn.C26_multilinear",
    "Interpn.C26_multicubic",
    "Interpn.C26_nearest"
   ],
   "note": "Exact arithmetic; transposed values and permuted axes. The multicubic statement is for representable observations, because which axis fails first decides between Err and panic."
  },
  {
   "property": "C27",
   "status": "proved",
   "theorems": [
    "Interpn.C27_agree"
   ],
   "note": "Exact arithmetic; regular grid vs the rectilinear grid with the same nodes, any evaluator and fma flag on either side."
  },
  {
   "property": "C28",
   "status": "proved",
   "theorems": [
    "Interpn.C28_agree"
   ],
   "note": "As C27, multicubic with either extrapolation flag."
  },
  {
   "property": "C29",
   "status": "proved",
   "theorems": [
    "Interpn.C29_agree"
   ],
   "note": "As C27, nearest neighbor."
  },
  {
   "property": "C30",
   "status": "proved",
   "theorems": [
    "Interpn.C30_node"
   ],
   "note": "Exact arithmetic, both grid kinds, both extrapolation flags."
  },
  {
   "property": "C31",
   "status": "proved",
   "theorems": [
    "Interpn.C31_reproduces"
   ],
   "note": "Exact arithmetic; inside the grid, or everywhere when extrapolation is not linearised."
  },
  {
   "property": "C32",
   "status": "proved",
   "theorems": [
    "Interpn.C32_reproduces"
   ],
   "note": "Exact arithmetic; both extrapolation flags."
  },
  {
   "property": "C33",
   "status": "proved",
   "theorems": [
    "Interpn.C33_contDiff"
   ],
   "note": "Over the reals; one C1 function on the whole space agrees with the library wherever evaluation succeeds."
  },
  {
   "property": "C34",
   "status": "proved",
   "theorems": [
    "Interpn.C34_first_cell",
    "Interpn.C34_last_cell",
    "Interpn.C34_affine_outside",
    "Interpn.C34_C35_derivative"
   ],
   "note": "First and last cell quadratics and their continuation over any ordered field; tangent extrapolation with derivatives over the reals; in N dimensions affine in each coordinate beyond the grid."
  },
  {
   "property": "C35",
   "status": "proved",
   "theorems": [
    "Interpn.C35_uniform",
    "Interpn.C35_cell",
    "Interpn.C34_C35_derivative"
   ],
   "note": "Derivative statement over the reals; unique cubic of each interior cell over any ordered field."
  },
  {
   "property": "C36",
   "status": "proved",
   "theorems": [
    "Interpn.C36_nearest",
    "Interpn.C36_unique",
    "Interpn.C36_outside",
    "Interpn.C36_between"
   ],
   "note": "Exact arithmetic; exactly one nearest node exists, ties to the lower index, clamped outside."
  },
  {
   "property": "C37",
   "status": "proved",
   "theorems": [
    "Interpn.C37_multilinear",
    "Interpn.C37_multicubic",
    "Interpn.C37_multilinear_separable",
    "Interpn.C37_multicubic_separable"
   ],
   "note": "Exact arithmetic; nesting of the library's own 1-D evaluator axis by axis, and products of 1-D data."
  },
  {
   "property": "C38",
   "status": "proved",
   "theorems": [
    "Interpn.C38_mismatch",
    "Interpn.C38_flags",
    "Interpn.C38_panics",
    "Interpn.C38_recursive_module",
    "Interpn.C38_exact",
    "Interpn.C38_C39_tolerance"
   ],
   "note": "Flags, mismatch errors, panics; exact meaning over an ordered field; the tolerance finding (points on the boundary are flagged at atol=0)."
  },
  {
   "property": "C39",
   "status": "proved",
   "theorems": [
    "Interpn.C39_mismatch",
    "Interpn.C39_flags",
    "Interpn.C39_recursive_module",
    "Interpn.C39_exact",
    "Interpn.C38_C39_tolerance"
   ],
   "note": "As C38 for rectilinear grids."
  },
  {
   "property": "C40",
   "status": "proved",
   "theorems": [
    "Interpn.C40_linear"
   ],
   "note": "Exact arithmetic."
  },
  {
   "property": "C41",
   "status": "proved",
   "theorems": [
    "Interpn.C41_cases",
    "Interpn.C41_clamp",
    "Interpn.C41_range"
   ],
   "note": "Exact arithmetic; the regular grid needs a representable cell number even though the held value does not depend on it (finding)."
  },
  {
   "property": "C42",
   "status": "proved",
   "theorems": [
    "Interpn.C42_left_regular",
    "Interpn.C42_right_regular",
    "Interpn.C42_left_rectilinear",
    "Interpn.C42_right_rectilinear"
   ],
   "note": "Exact arithmetic; states the node conventions, which differ between the two grid kinds (finding)."
  },
  {
   "property": "C43",
   "status": "proved",
   "theorems": [
    "Interpn.C43_nearest",
    "Interpn.C43_agree"
   ],
   "note": "Exact arithmetic."
  },
  {
   "property": "C44",
   "status": "proved",
   "theorems": [
    "Interpn.C44_eval_mismatch",
    "Interpn.C44_eval_ok",
    "Interpn.C44_eval_first_failure",
    "Interpn.C44_eval_alloc",
    "Interpn.C44_eval_alloc_fail"
   ],
   "note": "eval and eval_alloc for an arbitrary evaluator."
  },
  {
   "property": "C45",
   "status": "proved",
   "theorems": [
    "Interpn.C45_rectilinear_new",
    "Interpn.C45_rectilinear_eval",
    "Interpn.C45_regular_new",
    "Interpn.C45_regular_eval"
   ],
   "note": "Outcome of constructors and evaluation for the 1-D grid types, including the missing validation of RegularGrid1D."
  },
  {
   "property": "C46",
   "status": "proved",
   "theorems": [
    "Interpn.C46_formula",
    "Interpn.C46_multilinear_regular",
    "Interpn.C46_multilinear_rectilinear",
    "Interpn.C46_nearest_regular",
    "Interpn.C46_nearest_rectilinear",
    "Interpn.C46_multicubic_regular",
    "Interpn.C46_multicubic_rectilinear",
    "Interpn.C46_multilinear_regular_recursive",
    "Interpn.C46_multilinear_rectilinear_recursive",
    "Interpn.C46_multicubic_regular_recursive",
    "Interpn.C46_multicubic_rectilinear_recursive",
    "Interpn.C46_bijection",
    "Interpn.C46_lexicographic"
   ],
   "note": "C-order index formula, addresses used by flat and recursive evaluators, bijection, lexicographic order."
  },
  {
   "property": "C47",
   "status": "proved",
   "theorems": [
    "Interpn.C47_panic",
    "Interpn.C47_outcomes",
    "Interpn.C47_entries",
    "Interpn.C47_exact",
    "Interpn.C47_regular"
   ],
   "note": "Entries and outcomes for every float type; exact meaning for n >= 2; panics exactly for n = 0 or a number that does not convert. Floating point: C88."
  },
  {
   "property": "C48",
   "status": "proved",
   "theorems": [
    "Interpn.C48_entries",
    "Interpn.C48_roundtrip"
   ],
   "note": "Order for every element type; round trip through the interpolators in exact arithmetic."
  },
  {
   "property": "C49",
   "status": "proved",
   "theorems": [
    "Interpn.C49_regular",
    "Interpn.C49_rectilinear",
    "Interpn.C49_out",
    "Interpn.C49_unsupported",
    "Interpn.C49_too_many",
    "Interpn.C49_too_many_grids"
   ],
   "note": "Routine and arguments selected, treatment of out, unsupported dtype/method, more than 8 observation arrays."
  },
  {
   "property": "C50",
   "status": "proved",
   "theorems": [
    "Interpn.C50_multidim",
    "Interpn.C50_one_dim_rectilinear",
    "Interpn.C50_one_dim_regular"
   ],
   "note": "Any number of dimensions other than one raises; one-dimensional check characterised for both grid kinds."
  },
  {
   "property": "C51",
   "status": "proved",
   "theorems": [
    "Interpn.C51_nearest",
    "Interpn.C51_monotone"
   ],
   "note": "Exact arithmetic; monotone in each coordinate, inside and outside."
  },
  {
   "property": "C52",
   "status": "proved",
   "theorems": [
    "Interpn.C52_accuracy"
   ],
   "note": "Exact arithmetic; error bounded by the oscillation of the function over one cell."
  },
  {
   "property": "C53",
   "status": "proved",
   "theorems": [
    "Interpn.C53_rectilinear",
    "Interpn.C53_regular",
    "Interpn.C53_unit_weights",
    "Interpn.C53_simple_bound"
   ],
   "note": "Rounded arithmetic in the sense of Spec/Rounding.lean (standard model with underflow term and overflow threshold). C53_rectilinear/C53_regular: the result is the blend of one cell's corners with the computed weights, within blendError of the exact blend of the same weights; C53_unit_weights and C53_simple_bound specialise to weights in [0,1] (12 N u M)."
  },
  {
   "property": "C54",
   "status": "proved",
   "theorems": [
    "Interpn.C54_regular_err",
    "Interpn.C54_multicubic_regular",
    "Interpn.C54_regular_1d",
    "Interpn.C54_rectilinear_propagates",
    "Interpn.C54_nearest_rectilinear",
    "Interpn.C54_rectilinear_1d",
    "Interpn.C54_bounds_regular",
    "Interpn.C54_bounds_rectilinear"
   ],
   "note": "For every float type satisfying the IEEE laws of Spec/Special.lean (SpecialValues); Spec/ExtNum.lean constructs such a type for every rounding function. Multicubic on a regular grid: Err unless an earlier axis is at cell number isize::MIN (panic, see C07). Infinite coordinates on rectilinear grids give a non-finite result (can be NaN)."
  },
  {
   "property": "C55",
   "status": "proved",
   "theorems": [
    "Interpn.C55_multilinear",
    "Interpn.C55_multicubic"
   ],
   "note": "Exact arithmetic; multilinear and multicubic."
  },
  {
   "property": "C56",
   "status": "proved",
   "theorems": [
    "Interpn.C56_multilinear_regular",
    "Interpn.C56_multilinear_rectilinear",
    "Interpn.C56_multicubic_regular",
    "Interpn.C56_multicubic_rectilinear"
   ],
   "note": "Same laws. ContaminationBlock says both directions: only the block matters, and any special value in the block contaminates the result. Multicubic: blocks of 4 nodes in interior cells, 3 at the boundary and outside."
  },
  {
   "property": "C57",
   "status": "proved",
   "theorems": [
    "Interpn.C57_rectilinear",
    "Interpn.C57_simple_bound"
   ],
   "note": "End-to-end comparison of the rounded evaluation with the same evaluation over the ordered field; C57_simple_bound gives 26 N u M inside the range without underflow. Regular grids are C66."
  },
  {
   "property": "C58",
   "status": "proved",
   "theorems": [
    "Interpn.C58_regular",
    "Interpn.C58_rectilinear",
    "Interpn.C58_regular_messages",
    "Interpn.C58_rectilinear_messages",
    "Interpn.C58_new_f64",
    "Interpn.C58_new_f32"
   ],
   "note": ""
  },
  {
   "property": "C59",
   "status": "proved",
   "theorems": [
    "Interpn.C59_regular_f64",
    "Interpn.C59_rectilinear_f64",
    "Interpn.C59_regular_f32",
    "Interpn.C59_rectilinear_f32",
    "Interpn.C59_type_error_regular",
    "Interpn.C59_type_error_rectilinear",
    "Interpn.C59_no_obs",
    "Interpn.C59_overflow",
    "Interpn.C59_too_many_regular_f64",
    "Interpn.C59_too_many_rectilinear_f64",
    "Interpn.C59_too_many_regular_f32",
    "Interpn.C59_too_many_rectilinear_f32"
   ],
   "note": ""
  },
  {
   "property": "C60",
   "status": "proved",
   "theorems": [
    "Interpn.C60_regular_f64",
    "Interpn.C60_rectilinear_f64",
    "Interpn.C60_too_few_nodes_f64",
    "Interpn.C60_regular_f32",
    "Interpn.C60_rectilinear_f32",
    "Interpn.C60_too_few_nodes_f32"
   ],
   "note": ""
  },
  {
   "property": "C61",
   "status": "proved",
   "theorems": [
    "Interpn.C61_regular_f64",
    "Interpn.C61_rectilinear_f64",
    "Interpn.C61_regular_f32",
    "Interpn.C61_rectilinear_f32"
   ],
   "note": ""
  },
  {
   "property": "C62",
   "status": "proved",
   "theorems": [
    "Interpn.C62_f32_round_trip",
    "Interpn.C62_f32_widen",
    "Interpn.C62_regular_ieee",
    "Interpn.C62_rectilinear_ieee",
    "Interpn.C62_regular",
    "Interpn.C62_rectilinear"
   ],
   "note": ""
  },
  {
   "property": "C63",
   "status": "proved",
   "theorems": [
    "Interpn.C63_overshoot",
    "Interpn.C63_stability",
    "Interpn.C63_overshoot_regular"
   ],
   "note": "Exact arithmetic. Mesh-ratio form for both grid kinds plus a regular-grid corollary with 5/4 per axis; a concrete case attains the bound."
  },
  {
   "property": "C64",
   "status": "proved",
   "theorems": [
    "Interpn.C64_accuracy"
   ],
   "note": "Over the reals; derivative bounds are required only inside the grid."
  },
  {
   "property": "C65",
   "status": "proved",
   "theorems": [
    "Interpn.C65_accuracy",
    "Interpn.C65_accuracy_regular"
   ],
   "note": "Over the reals; general mesh ratio plus a regular-grid corollary with explicit constants."
  },
  {
   "property": "C66",
   "status": "proved",
   "theorems": [
    "Interpn.C66_regular",
    "Interpn.C66_simple_bound"
   ],
   "note": "End-to-end comparison with the same evaluation over the ordered field. Assumes in addition to the rounding model that comparisons, floor, the cast to isize and the cast of indices below the axis length are exact (true of IEEE types for axes shorter than 2^24 resp. 2^53). C66_simple_bound gives 50 N (1+kappa) u M."
  },
  {
   "property": "C67",
   "status": "proved",
   "theorems": [
    "Interpn.C67_multicubic_rectilinear",
    "Interpn.C67_multicubic_regular",
    "Interpn.C67_rectilinear",
    "Interpn.C67_regular"
   ],
   "note": "Law used: ExactIfFloat (an operation is exact whenever its exact result is a finite float). Finite weights are a hypothesis on the weights computed by the code. Multicubic: C67_multicubic_* (Props/DropAxis.lean), with the conditions of Spec/DropAxis.lean."
  },
  {
   "property": "C68",
   "status": "proved",
   "theorems": [
    "Interpn.C68_rectilinear",
    "Interpn.C68_regular",
    "Interpn.C68_counterexample"
   ],
   "note": "C68_counterexample shows that the condition on differences cannot be dropped (rounding down, 53 bits)."
  },
  {
   "property": "C69",
   "status": "proved",
   "theorems": [
    "Interpn.C69_rectilinear",
    "Interpn.C69_simple_bound"
   ],
   "note": "Observations in the grid range (extrapolation amplifies errors without bound and is not covered). Laws: rounding model, exact comparison, exact negation and constant 1. C69_simple_bound gives the linear form of the bound."
  },
  {
   "property": "C70",
   "status": "proved",
   "theorems": [
    "Interpn.C70_regular",
    "Interpn.C70_simple_bound"
   ],
   "note": "Observations in the grid range. Laws as for C66 and C69. C70_simple_bound gives 4200 N (1+c) u (5/4)^N M without underflow."
  },
  {
   "property": "C71",
   "status": "proved",
   "theorems": [
    "Interpn.C71_multilinear",
    "Interpn.C71_multicubic",
    "Interpn.C71_nearest"
   ],
   "note": "Exact arithmetic. The slice is described by Axes.dropAxis and withEntry (Spec/Subgrid.lean)."
  },
  {
   "property": "C72",
   "status": "proved",
   "theorems": [
    "Interpn.C72_multilinear",
    "Interpn.C72_multicubic",
    "Interpn.C72_nearest"
   ],
   "note": "Exact arithmetic."
  },
  {
   "property": "C73",
   "status": "proved",
   "theorems": [
    "Interpn.C73_multilinear",
    "Interpn.C73_multicubic",
    "Interpn.C73_nearest"
   ],
   "note": "Exact arithmetic. The range kept and the observations covered are described by Axes.sub and Axes.Covers; the example shows that the restriction for multicubic is needed."
  },
  {
   "property": "C74",
   "status": "proved",
   "theorems": [
    "Interpn.C74_refine"
   ],
   "note": "Exact arithmetic."
  },
  {
   "property": "C75",
   "status": "proved",
   "theorems": [
    "Interpn.C75_axis",
    "Interpn.C75_all_axes"
   ],
   "note": "Exact arithmetic. SlopesBounded is the hypothesis on the table."
  },
  {
   "property": "C76",
   "status": "proved",
   "theorems": [
    "Interpn.C76_multilinear",
    "Interpn.C76_multicubic",
    "Interpn.C76_nearest"
   ],
   "note": "Exact arithmetic; with rounding the corresponding facts are part of C57, C66, C69, C70."
  },
  {
   "property": "C77",
   "status": "proved",
   "theorems": [
    "Interpn.C77_rectilinear",
    "Interpn.C77_rectilinear_clear",
    "Interpn.C77_regular",
    "Interpn.C77_regular_clear"
   ],
   "note": "Standard model of rounding (Spec/Rounding.lean), exact comparisons, and 2, 1/2 representable. On regular grids the error of the computed position must be at most half a step."
  },
  {
   "property": "C78",
   "status": "proved",
   "theorems": [
    "Interpn.C78_interpn_f64",
    "Interpn.C78_wellshaped_f64",
    "Interpn.C78_interpn_f32",
    "Interpn.C78_wellshaped_f32"
   ],
   "note": "interpn for arrays with shapes, refined to the flat model of C49 and C50, per float type."
  },
  {
   "property": "C79",
   "status": "proved",
   "theorems": [
    "Interpn.C79_obs_f64",
    "Interpn.C79_out_f64",
    "Interpn.C79_grids_regular_f64",
    "Interpn.C79_grids_rectilinear_f64",
    "Interpn.C79_obs_f32",
    "Interpn.C79_out_f32",
    "Interpn.C79_grids_regular_f32",
    "Interpn.C79_grids_rectilinear_f32",
    "Interpn.C79_values"
   ],
   "note": "Per float type of the values. Observations checked with and without bounds check; a used out without bounds check."
  },
  {
   "property": "C80",
   "status": "proved",
   "theorems": [
    "Interpn.C80_regular_one_dim",
    "Interpn.C80_regular_type_error",
    "Interpn.C80_rectilinear_one_dim",
    "Interpn.C80_rectilinear_type_error",
    "Interpn.C80_check_bounds_regular_f64",
    "Interpn.C80_check_bounds_rectilinear_f64",
    "Interpn.C80_check_bounds_regular_f32",
    "Interpn.C80_check_bounds_rectilinear_f32"
   ],
   "note": "Both grid kinds. The documentation of eval promises any shape; see DESIGN.md section 6."
  },
  {
   "property": "C81",
   "status": "proved",
   "theorems": [
    "Interpn.C81_rectilinear_f64",
    "Interpn.C81_rectilinear_f32",
    "Interpn.C81_regular_f64",
    "Interpn.C81_regular_f32"
   ],
   "note": "IEEE arithmetic is the Lean type Ieee f (Spec/Ieee.lean), all rounding laws proved for it. Observations in the grid range only. The exact interpolant is the same model in rational arithmetic, characterised by C19 and others."
  },
  {
   "property": "C82",
   "status": "proved",
   "theorems": [
    "Interpn.C82_rectilinear_f64",
    "Interpn.C82_rectilinear_f32",
    "Interpn.C82_regular_f64",
    "Interpn.C82_regular_f32"
   ],
   "note": "As C81. Data bounded by 2^-1022 <= M <= 2^700 (f64), 2^-126 <= M <= 2^40 (f32); mesh ratio at most 2^30 / 2^9."
  },
  {
   "property": "C83",
   "status": "proved",
   "theorems": [
    "Interpn.C83_rectilinear_f64",
    "Interpn.C83_rectilinear_f32",
    "Interpn.C83_regular_f64",
    "Interpn.C83_regular_f32"
   ],
   "note": "As C81."
  },
  {
   "property": "C84",
   "status": "proved",
   "theorems": [
    "Interpn.C84_nonneg",
    "Interpn.C84_nonpos",
    "Interpn.C84_regular_counterexample"
   ],
   "note": "Rectilinear grids, every format and magnitude; the regular-grid statement is refuted by C84_regular_counterexample."
  },
  {
   "property": "C85",
   "status": "proved",
   "theorems": [
    "Interpn.C85_rectilinear",
    "Interpn.C85_rectilinear_zero",
    "Interpn.C85_regular"
   ],
   "note": "Rectilinear and regular grids, every format."
  },
  {
   "property": "C86",
   "status": "proved",
   "theorems": [
    "Interpn.C86_last_axis",
    "Interpn.C86_two_cells_counterexample"
   ],
   "note": "Last axis, hence all of 1-D; C86_two_cells_counterexample shows that the restriction to a cell is needed."
  },
  {
   "property": "C87",
   "status": "proved",
   "theorems": [
    "Interpn.C87_rectilinear_f64",
    "Interpn.C87_regular_f64",
    "Interpn.C87_rectilinear_f32",
    "Interpn.C87_regular_f32",
    "Interpn.C87_overshoot",
    "Interpn.C87_overflow_opposite",
    "Interpn.C87_overflow_same_sign"
   ],
   "note": "f32 and f64, both grid kinds; C87_overshoot shows that the widening is needed."
  },
  {
   "property": "C88",
   "status": "proved",
   "theorems": [
    "Interpn.C88_accuracy",
    "Interpn.C88_sorted",
    "Interpn.C88_single",
    "Interpn.C88_accuracy_f64",
    "Interpn.C88_accuracy_f32",
    "Interpn.C88_endpoint_counterexample"
   ],
   "note": "Accuracy for f32 and f64, order for every format; C88_endpoint_counterexample and C88_single are the exceptions."
  },
  {
   "property": "C89",
   "status": "proved",
   "theorems": [
    "Interpn.C89_multilinear_rectilinear",
    "Interpn.C89_multilinear_regular",
    "Interpn.C89_multicubic_rectilinear",
    "Interpn.C89_multicubic_regular",
    "Interpn.C89_nearest_rectilinear",
    "Interpn.C89_nearest_regular",
    "Interpn.C89_rectilinear_1d",
    "Interpn.C89_regular_1d"
   ],
   "note": "For every binary format, through a relation on stored values closed under the operations applied to data."
  },
  {
   "property": "C90",
   "status": "proved",
   "theorems": [
    "Interpn.C90_left_rectilinear",
    "Interpn.C90_right_rectilinear",
    "Interpn.C90_hold_last_rectilinear",
    "Interpn.C90_nearest_rectilinear",
    "Interpn.C90_linear_rectilinear_f64",
    "Interpn.C90_linear_regular_f64",
    "Interpn.C90_hold_regular_f64",
    "Interpn.C90_linear_rectilinear_f32",
    "Interpn.C90_linear_regular_f32",
    "Interpn.C90_hold_regular_f32",
    "Interpn.C90_slope_overflow",
    "Interpn.C90_nearest_far",
    "Interpn.C90_overshoot"
   ],
   "note": "Accuracy with explicit constants for f64 and f32; C90_slope_overflow, C90_nearest_far and C90_overshoot are the exceptions."
  },
  {
   "property": "C91",
   "status": "proved",
   "theorems": [
    "Interpn.C91_nodes_moved",
    "Interpn.C91_nearest"
   ],
   "note": "Exact arithmetic; the two grids may be of different kinds and use different implementations."
  },
  {
   "property": "C92",
   "status": "proved",
   "theorems": [
    "Interpn.C92_detected",
    "Interpn.C92_interpn_f64",
    "Interpn.C92_interpn_f32",
    "Interpn.C92_linspace_not_detected"
   ],
   "note": "End to end: detection, dispatch, batch and accuracy for f64 and f32; C92_linspace_not_detected is the negative result."
  },
  {
   "property": "C93",
   "status": "proved",
   "theorems": [
    "Interpn.C93_stability",
    "Interpn.C93_rectilinear",
    "Interpn.C93_regular",
    "Interpn.C93_rectilinear_f64",
    "Interpn.C93_rectilinear_f32",
    "Interpn.C93_regular_f64",
    "Interpn.C93_regular_f32"
   ],
   "note": "Extends C63, C69, C70 and C82 from the grid range to observations outside it."
  },
  {
   "property": "C94",
   "status": "proved",
   "theorems": [
    "Interpn.C94_linear_rectilinear_f64",
    "Interpn.C94_linear_rectilinear_f32",
    "Interpn.C94_linear_regular_f64",
    "Interpn.C94_linear_regular_f32",
    "Interpn.C94_cubic_rectilinear_f64",
    "Interpn.C94_cubic_rectilinear_f32",
    "Interpn.C94_cubic_regular_f64",
    "Interpn.C94_cubic_regular_f32",
    "Interpn.C94_interpn_linear_f64",
    "Interpn.C94_interpn_linear_f32"
   ],
   "note": "The statement compares the computed float with the real function directly; exact arithmetic appears only inside the proof. Table errors include rounding the samples to the float type."
  },
  {
   "property": "C95",
   "status": "proved",
   "theorems": [
    "Interpn.C95_interpn_nearest_f64",
    "Interpn.C95_interpn_nearest_f32"
   ],
   "note": "End-to-end theorem for the modelled Python function; uses C83/C77 for the two routines and the node bound of C92 for the detection."
  },
  {
   "property": "C96",
   "status": "proved",
   "theorems": [
    "Interpn.C96_axis",
    "Interpn.C96_all_axes"
   ],
   "note": "Exact arithmetic; C96_axis moves one coordinate, C96_all_axes all of them."
  },
  {
   "property": "C97",
   "status": "proved",
   "theorems": [
    "Interpn.C97_nodes_moved"
   ],
   "note": "Exact arithmetic; the multicubic counterpart of C91."
  },
  {
   "property": "C98",
   "status": "proved",
   "theorems": [
    "Interpn.C98_interpn_cubic_f64",
    "Interpn.C98_interpn_cubic_f32"
   ],
   "note": "End-to-end theorem for the modelled Python function; uses C93/C82 for the two routines, C97 for the nodes and C92 for the detection."
  },
  {
   "property": "C99",
   "status": "proved",
   "theorems": [
    "Interpn.C99_multilinear_rectilinear",
    "Interpn.C99_multicubic_rectilinear",
    "Interpn.C99_nearest_rectilinear",
    "Interpn.C99_multilinear_regular",
    "Interpn.C99_nearest_regular",
    "Interpn.C99_multicubic_regular",
    "Interpn.C99_check_bounds_regular",
    "Interpn.C99_check_bounds_rectilinear",
    "Interpn.C99_hold_rectilinear",
    "Interpn.C99_hold_regular",
    "Interpn.C99_python",
    "Interpn.C99_linear_1d_counterexample",
    "Interpn.C99_factor_three_counterexample"
   ],
   "note": "All six N-D evaluators, the 1-D hold/nearest interpolators, both bounds checks and the Python call; examples in f64 with subnormal axes; counterexamples for factor 3, overflow, and 1-D linear interpolation."
  },
  {
   "property": "C100",
   "status": "proved",
   "theorems": [
    "Interpn.C100_stability",
    "Interpn.C100_sharp",
    "Interpn.C100_rectilinear_f64",
    "Interpn.C100_regular_f64",
    "Interpn.C100_rectilinear_f32",
    "Interpn.C100_regular_f32"
   ],
   "note": "Exact stability with the sharp constant, then f64 and f32 bounds for both kinds of grid; examples outside the grid on both axes."
  },
  {
   "property": "C101",
   "status": "proved",
   "theorems": [
    "Interpn.C101_elements",
    "Interpn.C101_interpn",
    "Interpn.C101_interpn_out",
    "Interpn.C101_regular",
    "Interpn.C101_rectilinear",
    "Interpn.C101_regular_type_error",
    "Interpn.C101_rectilinear_type_error"
   ],
   "note": "Props/PythonLayout.lean; model of memory in Model/PythonLayout.lean"
  },
  {
   "property": "C102",
   "status": "proved",
   "theorems": [
    "Interpn.C102_linear_rectilinear_f64",
    "Interpn.C102_linear_regular_f64",
    "Interpn.C102_linear_kinds_f64",
    "Interpn.C102_linear_axes_f64",
    "Interpn.C102_cubic_rectilinear_f64",
    "Interpn.C102_cubic_regular_f64",
    "Interpn.C102_cubic_kinds_f64",
    "Interpn.C102_cubic_axes_f64",
    "Interpn.C102_linear_rectilinear_f32",
    "Interpn.C102_linear_regular_f32",
    "Interpn.C102_linear_kinds_f32",
    "Interpn.C102_linear_axes_f32",
    "Interpn.C102_cubic_rectilinear_f32",
    "Interpn.C102_cubic_regular_f32",
    "Interpn.C102_cubic_kinds_f32",
    "Interpn.C102_cubic_axes_f32",
    "Interpn.C102_linear_precision",
    "Interpn.C102_cubic_precision",
    "Interpn.C102_linear_axes_regular_f64",
    "Interpn.C102_cubic_axes_regular_f64",
    "Interpn.C102_linear_axes_regular_f32",
    "Interpn.C102_cubic_axes_regular_f32",
    "Interpn.C102_linear_precision_regular",
    "Interpn.C102_cubic_precision_regular"
   ],
   "note": "Props/IeeeVariants.lean, Props/IeeeVariantsRegular.lean; from C81, C82 and the exact agreements C21, C26-C28"
  },
  {
   "property": "C103",
   "status": "proved",
   "theorems": [
    "Interpn.C103_rectilinear",
    "Interpn.C103_regular",
    "Interpn.C103_exact",
    "Interpn.C103_rectilinear_f64",
    "Interpn.C103_regular_f64",
    "Interpn.C103_rectilinear_near_f64",
    "Interpn.C103_regular_near_f64",
    "Interpn.C103_rectilinear_f32",
    "Interpn.C103_regular_f32",
    "Interpn.C103_rectilinear_near_f32",
    "Interpn.C103_regular_near_f32",
    "Interpn.C103_end_nodes",
    "Interpn.C103_outside"
   ],
   "note": "Props/Linearize.lean; law-free equality, exact equality, f64 and f32 corollaries; C103_end_nodes and C103_outside are concrete witnesses showing that the hypotheses are needed"
  },
  {
   "property": "C104",
   "status": "proved",
   "theorems": [
    "Interpn.C104_multilinear_regular_f64",
    "Interpn.C104_multilinear_rectilinear_f64",
    "Interpn.C104_multicubic_regular_f64",
    "Interpn.C104_multicubic_rectilinear_f64",
    "Interpn.C104_nearest_regular_f64",
    "Interpn.C104_nearest_rectilinear_f64",
    "Interpn.C104_multilinear_regular_f32",
    "Interpn.C104_multilinear_rectilinear_f32",
    "Interpn.C104_multicubic_regular_f32",
    "Interpn.C104_multicubic_rectilinear_f32",
    "Interpn.C104_nearest_regular_f32",
    "Interpn.C104_nearest_rectilinear_f32"
   ],
   "note": "Props/ClassAccuracy.lean; one theorem per class and element type, from C58, C60 and C81-C83"
  },
  {
   "property": "C105",
   "status": "proved",
   "theorems": [
    "Interpn.C105_nearest_regular",
    "Interpn.C105_nearest_rectilinear",
    "Interpn.C105_hold_regular",
    "Interpn.C105_hold_rectilinear",
    "Interpn.C105_order",
    "Interpn.C105_rectilinear_f64",
    "Interpn.C105_regular_f64",
    "Interpn.C105_rectilinear_f32",
    "Interpn.C105_regular_f32",
    "Interpn.C105_rounding_counterexample",
    "Interpn.C105_counterexample"
   ],
   "note": "Props/DataOrder.lean; C105_counterexample (extrapolation, cubic) and C105_rounding_counterexample (f64) are concrete witnesses showing that the restrictions are needed"
  },
  {
   "property": "C106",
   "status": "proved",
   "theorems": [
    "Interpn.C106_convex",
    "Interpn.C106_concave",
    "Interpn.C106_above",
    "Interpn.C106_below",
    "Interpn.C106_extrapolation",
    "Interpn.C106_above_rectilinear_f64",
    "Interpn.C106_above_regular_f64",
    "Interpn.C106_below_rectilinear_f64",
    "Interpn.C106_below_regular_f64",
    "Interpn.C106_above_rectilinear_f32",
    "Interpn.C106_above_regular_f32",
    "Interpn.C106_below_rectilinear_f32",
    "Interpn.C106_below_regular_f32",
    "Interpn.C106_cubic_counterexample"
   ],
   "note": "Props/Convex.lean; C106_cubic_counterexample is a concrete witness that cubic interpolation is not covered"
  },
  {
   "property": "C107",
   "status": "proved",
   "theorems": [
    "Interpn.C107_linear_rectilinear_f64",
    "Interpn.C107_monotone_rectilinear_f64",
    "Interpn.C107_cubic_rectilinear_f64",
    "Interpn.C107_linear_regular_f64",
    "Interpn.C107_monotone_regular_f64",
    "Interpn.C107_cubic_regular_f64",
    "Interpn.C107_linear_rectilinear_f32",
    "Interpn.C107_monotone_rectilinear_f32",
    "Interpn.C107_cubic_rectilinear_f32",
    "Interpn.C107_linear_regular_f32",
    "Interpn.C107_monotone_regular_f32",
    "Interpn.C107_cubic_regular_f32"
   ],
   "note": "Props/FloatMotion.lean; from C75, C51, C96 and the rounding bounds C81, C82"
  },
  {
   "property": "C108",
   "status": "proved",
   "theorems": [
    "Interpn.C108_new_regular",
    "Interpn.C108_new_rectilinear",
    "Interpn.C108_eval_regular",
    "Interpn.C108_eval_rectilinear",
    "Interpn.C108_frame_regular",
    "Interpn.C108_frame_rectilinear",
    "Interpn.C108_inputs_regular",
    "Interpn.C108_inputs_rectilinear",
    "Interpn.C108_refused_regular",
    "Interpn.C108_refused_rectilinear",
    "Interpn.C108_frame_interpn",
    "Interpn.C108_interpn",
    "Interpn.C108_interpn_ambiguous",
    "Interpn.C108_isolated_regular",
    "Interpn.C108_isolated_rectilinear"
   ],
   "note": "Model/PythonHeap.lean, Spec/PythonHeap.lean, Props/PythonHeap.lean; rust-numpy's borrow check enters through Borrow.Lawful"
  },
  {
   "property": "C109",
   "status": "proved",
   "theorems": [
    "Interpn.C109_multilinear_regular",
    "Interpn.C109_multilinear_regular_built",
    "Interpn.C109_multilinear_rectilinear",
    "Interpn.C109_multilinear_rectilinear_built",
    "Interpn.C109_multilinear_regular_recursive",
    "Interpn.C109_multilinear_regular_recursive_built",
    "Interpn.C109_multilinear_rectilinear_recursive",
    "Interpn.C109_multilinear_rectilinear_recursive_built",
    "Interpn.C109_nearest_regular",
    "Interpn.C109_nearest_regular_built",
    "Interpn.C109_nearest_rectilinear",
    "Interpn.C109_nearest_rectilinear_built",
    "Interpn.C109_multicubic_regular",
    "Interpn.C109_multicubic_rectilinear",
    "Interpn.C109_multicubic_rectilinear_built",
    "Interpn.C109_multicubic_regular_recursive",
    "Interpn.C109_multicubic_rectilinear_recursive",
    "Interpn.C109_multicubic_rectilinear_recursive_built",
    "Interpn.C109_multicubic_regular_built",
    "Interpn.C109_multicubic_regular_recursive_built",
    "Interpn.C109_multilinear_regular_interpn",
    "Interpn.C109_multilinear_regular_recursive_interpn",
    "Interpn.C109_multilinear_rectilinear_interpn",
    "Interpn.C109_multilinear_rectilinear_recursive_interpn",
    "Interpn.C109_nearest_regular_interpn",
    "Interpn.C109_nearest_rectilinear_interpn",
    "Interpn.C109_multicubic_regular_interpn",
    "Interpn.C109_multicubic_regular_recursive_interpn",
    "Interpn.C109_multicubic_rectilinear_interpn",
    "Interpn.C109_multicubic_rectilinear_recursive_interpn",
    "Interpn.C109_check_bounds",
    "Interpn.C109_linspace",
    "Interpn.C109_grid1d",
    "Interpn.C109_one_dim_regular",
    "Interpn.C109_one_dim_rectilinear",
    "Interpn.C109_rectilinear1d_built",
    "Interpn.C109_regular1d_built"
   ],
   "note": "Model/Unchecked/ holds the functions with wrapping integers; Props/Unchecked.lean"
  },
  {
   "property": "C110",
   "status": "proved",
   "theorems": [
    "Interpn.C110_multilinear_regular",
    "Interpn.C110_nearest_regular",
    "Interpn.C110_multicubic_regular",
    "Interpn.C110_multilinear_rectilinear",
    "Interpn.C110_nearest_rectilinear",
    "Interpn.C110_multicubic_rectilinear",
    "Interpn.C110_multilinear_regular_recursive",
    "Interpn.C110_multicubic_regular_recursive",
    "Interpn.C110_multilinear_rectilinear_recursive",
    "Interpn.C110_multicubic_rectilinear_recursive",
    "Interpn.C110_regular_fits",
    "Interpn.C110_rectilinear_fits",
    "Interpn.C110_linspace_zero",
    "Interpn.C110_regular1d_empty",
    "Interpn.C110_wrapped_shape",
    "Interpn.C110_cubic_far_low"
   ],
   "note": "Spec/Unchecked.lean, Props/UncheckedNew.lean"
  },
  {
   "property": "C111",
   "status": "proved",
   "theorems": [
    "Interpn.C111_linear",
    "Interpn.C111_cubic",
    "Interpn.C111_linear_deriv",
    "Interpn.C111_cubic_gradient"
   ],
   "note": "Lemmas/Gradient.lean, Props/Gradient.lean"
  },
  {
   "property": "C112",
   "status": "proved",
   "theorems": [
    "Interpn.C112_regular_f64",
    "Interpn.C112_rectilinear_f64",
    "Interpn.C112_regular_f32",
    "Interpn.C112_rectilinear_f32"
   ],
   "note": "Bit-for-bit equality of arrays and exceptions, check_bounds off and out not given, regular and rectilinear, per float type."
  },
  {
   "property": "C113",
   "status": "proved",
   "theorems": [
    "Interpn.C113_linear",
    "Interpn.C113_cubic",
    "Interpn.C113_rectilinear_f64",
    "Interpn.C113_regular_f64",
    "Interpn.C113_rectilinear_f32",
    "Interpn.C113_regular_f32",
    "Interpn.C113_cubic_rectilinear_f64",
    "Interpn.C113_cubic_regular_f64",
    "Interpn.C113_cubic_rectilinear_f32",
    "Interpn.C113_cubic_regular_f32"
   ],
   "note": "Observations must be finite: the check never flags NaN (finding 1)."
  },
  {
   "property": "C114",
   "status": "proved",
   "theorems": [
    "Interpn.C114_multilinear_regular",
    "Interpn.C114_multilinear_rectilinear",
    "Interpn.C114_nearest_regular",
    "Interpn.C114_nearest_rectilinear",
    "Interpn.C114_multicubic_regular",
    "Interpn.C114_multicubic_rectilinear",
    "Interpn.C114_join",
    "Interpn.C114_pick",
    "Interpn.C114_interpn_join",
    "Interpn.C114_interpn_pick",
    "Interpn.C114_class_regular_f64",
    "Interpn.C114_class_regular_f32",
    "Interpn.C114_class_rectilinear_f64",
    "Interpn.C114_class_rectilinear_f32"
   ],
   "note": "Through Python, `out` is not given and the bounds check is off (C49 describes it when on)."
  },
  {
   "property": "C115",
   "status": "proved",
   "theorems": [
    "Interpn.C115_multilinear_regular",
    "Interpn.C115_multilinear_regular_recursive",
    "Interpn.C115_multilinear_rectilinear",
    "Interpn.C115_multilinear_rectilinear_recursive",
    "Interpn.C115_multicubic_regular",
    "Interpn.C115_multicubic_regular_recursive",
    "Interpn.C115_multicubic_rectilinear",
    "Interpn.C115_multicubic_rectilinear_recursive",
    "Interpn.C115_nearest_regular",
    "Interpn.C115_nearest_rectilinear",
    "Interpn.C115_1d_regular",
    "Interpn.C115_1d_rectilinear"
   ],
   "note": "Counted: loop passes, reads of the value array, one-axis interpolations, comparisons of the search. The counted evaluators (Model/Counted) are the evaluators of the model in a counting monad; the first half of each theorem says that dropping the counts gives the model's outcome. The search is that of the Rust standard library, 1.85 or later (C18). Not counted: the length checks of a batch, construction, memory."
  },
  {
   "property": "C116",
   "status": "proved",
   "theorems": [
    "Interpn.C116_multilinear",
    "Interpn.C116_multicubic",
    "Interpn.C116_nearest"
   ],
   "note": "Exact arithmetic. Combines C91 / C97 (nodes), C100 / C63 (values) and C25 (moving observation and grid together)."
  },
  {
   "property": "C117",
   "status": "proved",
   "theorems": [
    "Interpn.C117_multilinear",
    "Interpn.C117_multilinear_regular",
    "Interpn.C117_multicubic",
    "Interpn.C117_multicubic_regular",
    "Interpn.C117_nearest",
    "Interpn.C117_nearest_regular"
   ],
   "note": "The conversion is that of numpy's astype (round to nearest even, Spec/IeeeNumpy `single`). The mesh ratio of the cubic theorem on rectilinear grids is assumed of the grid before and after the conversion. Observations lie in the f64 grid; after the conversion they may lie outside the f32 grid."
  },
  {
   "property": "C118",
   "status": "proved",
   "theorems": [
    "Interpn.C118_multilinear",
    "Interpn.C118_multilinear_regular",
    "Interpn.C118_multicubic_regular",
    "Interpn.C118_nearest",
    "Interpn.C118_nearest_regular",
    "Interpn.C118_linear_1d",
    "Interpn.C118_linear_1d_regular"
   ],
   "note": "Multicubic interpolation on rectilinear grids is not covered: its node slopes divide by sums of neighbouring widths, which are not powers of two."
  },
  {
   "property": "C119",
   "status": "proved",
   "theorems": [
    "Interpn.C119_rectilinear_f64",
    "Interpn.C119_rectilinear_f32",
    "Interpn.C119_regular_f64",
    "Interpn.C119_regular_f32"
   ],
   "note": "Extends C83 to observations outside the grid. NaN coordinates: C54. On regular grids observations whose cell number does not fit isize are errors (C17, C54), which is why their size is limited."
  },
  {
   "property": "C120",
   "status": "proved",
   "theorems": [
    "Interpn.C120_multilinear_rectilinear",
    "Interpn.C120_multicubic_rectilinear",
    "Interpn.C120_nearest_rectilinear",
    "Interpn.C120_rectilinear_1d",
    "Interpn.C120_multilinear_regular",
    "Interpn.C120_multicubic_regular",
    "Interpn.C120_nearest_regular",
    "Interpn.C120_first_node"
   ],
   "note": "Bit-for-bit version of C73. KeptBy and KeptByFirst (Spec/Crop.lean) say which observations are covered, in terms of the comparison `<` of the arithmetic; an example shows that the comparison with the first node kept has to be strict. On regular grids a crop at the lower end changes the start, hence the rounding (C102)."
  },
  {
   "property": "C121",
   "status": "proved",
   "theorems": [
    "Interpn.C121_nearest_rectilinear",
    "Interpn.C121_nearest_regular",
    "Interpn.C121_multilinear_rectilinear",
    "Interpn.C121_multicubic_rectilinear",
    "Interpn.C121_multilinear_regular",
    "Interpn.C121_multicubic_regular",
    "Interpn.C121_counterexample"
   ],
   "note": "Floating-point version of C72. PositionsFinite and RegularPositionsFinite (Spec/DropAxis.lean) state the condition on the redundant axis. C121_counterexample: when the smaller table overflows to infinity, the larger one returns NaN. On regular grids the call with all axes has to succeed (C28)."
  },
  {
   "property": "C122",
   "status": "proved",
   "theorems": [
    "Interpn.C122_multilinear_rectilinear",
    "Interpn.C122_multicubic_rectilinear",
    "Interpn.C122_nearest_rectilinear",
    "Interpn.C122_multilinear_regular",
    "Interpn.C122_nearest_regular",
    "Interpn.C122_multicubic_regular",
    "Interpn.C122_order"
   ],
   "note": "The one-dimensional calls are those of the same function on the line firstLine (Spec/Contract.lean); they have to succeed, which on rectilinear grids they always do. C122_order: in f64 contracting the second axis first gives another number. SameKind: with fma the flat and the nested evaluator contract different expressions (finding 13), so both calls use the same one."
  },
  {
   "property": "C123",
   "status": "proved",
   "theorems": [
    "Interpn.C123_multilinear_unique",
    "Interpn.C123_multilinear",
    "Interpn.C123_multicubic_unique",
    "Interpn.C123_multicubic"
   ],
   "note": "The shapes PiecewiseAffine and PiecewiseCubic (Spec/Interpolant.lean) are stated by coefficients of polynomials on each cell and refer to no formula of the model."
  },
  {
   "property": "C124",
   "status": "proved",
   "theorems": [
    "Interpn.C124_multilinear_rectilinear",
    "Interpn.C124_multilinear_regular",
    "Interpn.C124_multicubic_regular",
    "Interpn.C124_multicubic_rectilinear",
    "Interpn.C124_nearest_rectilinear",
    "Interpn.C124_nearest_regular",
    "Interpn.C124_counterexample",
    "Interpn.C124_1d_rectilinear",
    "Interpn.C124_1d_regular",
    "Interpn.C124_1d_stored",
    "Interpn.C124_1d_counterexample"
   ],
   "note": "Underflow is excluded by a condition on the input only: the values are multiples of 2^m, the computed positions in the cells have at most s binary places (a float has if it is 0 or not smaller than 2^(p-1-s)), for rectilinear cubic interpolation the ratios of adjacent widths are between 2^-r and 2^r, and m minus the places lost per axis is not below the last subnormal digit. C124_counterexample: it cannot be dropped. Overflow is excluded by the scaled result being finite. The calls end in the same way in any case."
  },
  {
   "property": "C125",
   "status": "proved",
   "theorems": [
    "Interpn.C125_multilinear_rectilinear",
    "Interpn.C125_nearest_rectilinear",
    "Interpn.C125_rectilinear_1d",
    "Interpn.C125_jump_multilinear",
    "Interpn.C125_jump_nearest",
    "Interpn.C125_jump_1d",
    "Interpn.C125_counterexample_end",
    "Interpn.C125_counterexample_cubic"
   ],
   "note": "C125_multilinear_rectilinear, C125_nearest_rectilinear, C125_rectilinear_1d: the cell used has two different nodes with the observation between them, and alone decides the result. C125_jump_*: the two parts of the table. C125_counterexample_end and C125_counterexample_cubic: f64 witnesses for a repeated last node and for multicubic interpolation next to a repeated node."
  },
  {
   "property": "C126",
   "status": "proved",
   "theorems": [
    "Interpn.C126_multilinear_rectilinear_f64",
    "Interpn.C126_multilinear_regular_f64",
    "Interpn.C126_multicubic_rectilinear_f64",
    "Interpn.C126_multicubic_regular_f64",
    "Interpn.C126_multilinear_rectilinear_f32",
    "Interpn.C126_multilinear_regular_f32",
    "Interpn.C126_multicubic_rectilinear_f32",
    "Interpn.C126_multicubic_regular_f32",
    "Interpn.C126_counterexample"
   ],
   "note": "Eight theorems (method, grid kind, format); bounds per result as in C81 and C82. C126_counterexample: the sum of two tables gives another f64 than the sum of the results."
  },
  {
   "property": "C127",
   "status": "proved",
   "theorems": [
    "Interpn.C127_nearest_rectilinear",
    "Interpn.C127_nearest_mesh",
    "Interpn.C127_nearest_1d",
    "Interpn.C127_multilinear_rectilinear",
    "Interpn.C127_multilinear_simple"
   ],
   "note": "C127_nearest_mesh combines the batch specification (C09, C10), the order of meshgrid (C48) and exactness at nodes. C68 gives exactness of multilinear under a condition on differences, and a counterexample without it."
  },
  {
   "property": "C128",
   "status": "proved",
   "theorems": [
    "Interpn.C128_nearest_rectilinear",
    "Interpn.C128_nearest_regular",
    "Interpn.C128_monotone_table",
    "Interpn.C128_hold_rectilinear",
    "Interpn.C128_nearest_1d",
    "Interpn.C128_hold_regular",
    "Interpn.C128_counterexample_nearest_1d",
    "Interpn.C128_monotone_table_regular"
   ],
   "note": "C128_counterexample_nearest_1d: values 5, 7 on the nodes 0, 1: 7 at 2 but 5 at 2^60 (finding 24)."
  },
  {
   "property": "C129",
   "status": "proved",
   "theorems": [
    "Interpn.C129_multilinear",
    "Interpn.C129_linear_1d",
    "Interpn.C129_hold_last",
    "Interpn.C129_unique_solution",
    "Interpn.C129_f64",
    "Interpn.C129_f32"
   ],
   "note": "Exact arithmetic only; in floating point the error of each of the two steps is bounded by C81 and C90."
  },
  {
   "property": "C130",
   "status": "proved",
   "theorems": [
    "Interpn.C130_list",
    "Interpn.C130_injective",
    "Interpn.C130_regular",
    "Interpn.C130_rectilinear",
    "Interpn.C130_no_escapes",
    "Interpn.C130_printer_exists",
    "Interpn.C130_seventeen_digits",
    "Interpn.C130_other_writer",
    "Interpn.C130_other_writer_f32",
    "Interpn.C130_sixteen_not_enough"
   ],
   "note": "json, float.__repr__ and float() are CPython, modelled character by character after their documented behaviour (shortest digits, correctly rounded reading); the outer document is C131."
  },
  {
   "property": "C131",
   "status": "proved",
   "theorems": [
    "Interpn.C131_regular_text",
    "Interpn.C131_rectilinear_text",
    "Interpn.C131_regular_fields",
    "Interpn.C131_rectilinear_fields",
    "Interpn.C131_regular",
    "Interpn.C131_rectilinear",
    "Interpn.C131_round_trip",
    "Interpn.C131_cubic_refused",
    "Interpn.C131_unknown_field",
    "Interpn.C131_missing_field",
    "Interpn.C131_nested_dims",
    "Interpn.C131_grid_kind_refused",
    "Interpn.C131_truncated",
    "Interpn.C131_truncated_dump",
    "Interpn.C131_trailing"
   ],
   "note": "JSON and pydantic are libraries, modelled after their documented behaviour (extra=forbid, required fields, discriminator). Escapes in strings, null and numbers with fraction or exponent outside of the strings are not modelled."
  },
  {
   "property": "C132",
   "status": "proved",
   "theorems": [
    "Interpn.C132_multilinear",
    "Interpn.C132_multicubic",
    "Interpn.C132_multicubic_regular",
    "Interpn.C132_nearest",
    "Interpn.C132_one_dim"
   ],
   "note": "Level 2 over the reals, Lebesgue integral over the closed box of the grid."
  },
  {
   "property": "C133",
   "status": "proved",
   "theorems": [
    "Interpn.C133_multicubic_regular_inside",
    "Interpn.C133_multicubic_regular",
    "Interpn.C133_multicubic_rectilinear",
    "Interpn.C133_multilinear_regular",
    "Interpn.C133_counterexample"
   ],
   "note": "Level 1 (C133_multicubic_regular_inside) and level 3, the formal IEEE 754 instance. Refines C01, C03 and C04, which are about builds without fma. The multilinear rectilinear evaluators agree in every build (C02), so they need no condition here."
  },
  {
   "property": "C134",
   "status": "proved",
   "theorems": [
    "Interpn.C134_monotone",
    "Interpn.C134_monotone_regular",
    "Interpn.C134_counterexample",
    "Interpn.C134_table",
    "Interpn.C134_table_regular",
    "Interpn.C134_rectilinear_f64",
    "Interpn.C134_rectilinear_f32",
    "Interpn.C134_regular_f64",
    "Interpn.C134_regular_f32"
   ],
   "note": "Level 2. Multilinear interpolation needs no condition (C51)."
  },
  {
   "property": "C135",
   "status": "proved",
   "theorems": [
    "Interpn.C135_nearest_multilinear",
    "Interpn.C135_multicubic_multilinear",
    "Interpn.C135_multicubic_multilinear_regular",
    "Interpn.C135_sharp",
    "Interpn.C135_regular_f64",
    "Interpn.C135_rectilinear_f64",
    "Interpn.C135_regular_f32",
    "Interpn.C135_rectilinear_f32",
    "Interpn.C135_nearest_rectilinear_f64",
    "Interpn.C135_nearest_rectilinear_f32",
    "Interpn.C135_nearest_regular_f64",
    "Interpn.C135_nearest_regular_f32"
   ],
   "note": "Level 2. C135_sharp shows that the one-dimensional bounds are attained on a regular grid."
  },
  {
   "property": "C136",
   "status": "proved",
   "theorems": [
    "Interpn.C136_nearest_ieee",
    "Interpn.C136_multilinear",
    "Interpn.C136_nearest",
    "Interpn.C136_multicubic",
    "Interpn.C136_multicubic_regular",
    "Interpn.C136_overshoot",
    "Interpn.C136_rectilinear_f64",
    "Interpn.C136_rectilinear_f32",
    "Interpn.C136_regular_f64",
    "Interpn.C136_regular_f32",
    "Interpn.C136_cubic_rectilinear_f64",
    "Interpn.C136_cubic_rectilinear_f32",
    "Interpn.C136_cubic_regular_f64",
    "Interpn.C136_cubic_regular_f32"
   ],
   "note": "Level 2. C136_overshoot gives a table whose cubic varies more than the table."
  },
  {
   "property": "C137",
   "status": "proved",
   "theorems": [
    "Interpn.C137_multilinear",
    "Interpn.C137_multicubic",
    "Interpn.C137_multicubic_regular",
    "Interpn.C137_nearest",
    "Interpn.C137_linear_rectilinear_f64",
    "Interpn.C137_linear_regular_f64",
    "Interpn.C137_cubic_rectilinear_f64",
    "Interpn.C137_cubic_regular_f64",
    "Interpn.C137_linear_rectilinear_f32",
    "Interpn.C137_linear_regular_f32",
    "Interpn.C137_cubic_rectilinear_f32",
    "Interpn.C137_cubic_regular_f32"
   ],
   "note": "Level 2. The examples give weights inside and outside a grid; outside, a multilinear weight is negative."
  },
  {
   "property": "C138",
   "status": "proved",
   "theorems": [
    "Interpn.C138_multilinear",
    "Interpn.C138_multicubic",
    "Interpn.C138_nearest",
    "Interpn.C138_converges_multilinear",
    "Interpn.C138_converges_multicubic",
    "Interpn.C138_converges_nearest",
    "Interpn.C138_linear_rectilinear_f64",
    "Interpn.C138_linear_regular_f64",
    "Interpn.C138_cubic_rectilinear_f64",
    "Interpn.C138_cubic_regular_f64",
    "Interpn.C138_nearest_rectilinear_f64",
    "Interpn.C138_nearest_regular_f64",
    "Interpn.C138_linear_rectilinear_f32",
    "Interpn.C138_linear_regular_f32",
    "Interpn.C138_cubic_rectilinear_f32",
    "Interpn.C138_cubic_regular_f32",
    "Interpn.C138_nearest_rectilinear_f32",
    "Interpn.C138_nearest_regular_f32"
   ],
   "note": "Level 2 (any ordered field for the local bounds, the reals for convergence). Level 3 for the f64 and f32 theorems, where F is a function of real variables and the rounding bounds are those of C81 and C82."
  },
  {
   "property": "C139",
   "status": "proved",
   "theorems": [
    "Interpn.C139_inner",
    "Interpn.C139_regular",
    "Interpn.C139_middle",
    "Interpn.C139_regular_f64",
    "Interpn.C139_regular_f32"
   ],
   "note": "Level 2, and level 3 for the f64 and f32 theorems (observations in a regular grid)."
  },
  {
   "property": "C140",
   "status": "proved",
   "theorems": [
    "Interpn.C140_multilinear_regular_f64",
    "Interpn.C140_multilinear_rectilinear_f64",
    "Interpn.C140_multicubic_regular_f64",
    "Interpn.C140_multicubic_rectilinear_f64",
    "Interpn.C140_multilinear_regular_f32",
    "Interpn.C140_multilinear_rectilinear_f32",
    "Interpn.C140_multicubic_regular_f32",
    "Interpn.C140_multicubic_rectilinear_f32",
    "Interpn.C140_nearest_regular_f64",
    "Interpn.C140_nearest_rectilinear_f64",
    "Interpn.C140_nearest_regular_f32",
    "Interpn.C140_nearest_rectilinear_f32",
    "Interpn.C140_linear_f64",
    "Interpn.C140_cubic_f64",
    "Interpn.C140_nearest_f64",
    "Interpn.C140_linear_f32",
    "Interpn.C140_cubic_f32",
    "Interpn.C140_nearest_f32"
   ],
   "note": "Level 3. Grid coordinates are bounded by a multiple k of the first cell width, which enters the rounding term, as in C92, C95 and C98. For the classes the rounding comes from C104. C94_interpn_linear is the smooth linear case, stated earlier."
  }
 ]
}