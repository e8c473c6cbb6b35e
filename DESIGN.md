# Design of the formal model of `interpn`

This file states what is modelled, how each property of `properties.jsonl` is
expressed and proved, and what has to be trusted.

## 1. Trusted base

* Lean 4.33's kernel. Theorems depend at most on Lean's three standard axioms
  `propext`, `Classical.choice`, `Quot.sound` (checked with `#print axioms`).
  No own axioms, no `sorry`, no `native_decide`, no `bv_decide`.
* Mathlib 4.33 as a library of proved theorems.
* The correspondence between the Rust source and the Lean model, which is a
  hand translation. Every definition of `lean/Verif/Model/*` cites file and
  lines of `/repo`.
* `Spec/BinaryFormat.lean` and `Spec/Ieee.lean` as a description of the `f32` and
  `f64` arithmetic of the target (only for C81 and later properties that name
  `F32` or `F64`).
* The semantics assumed for things outside `/repo`:
  * `num_traits::Float` / `NumCast`: an arbitrary structure of operations
    (class `FloatOps`) with **no laws** for the structural theorems; the only
    built-in fact is that a cast to `isize` yields a number in `isize` range.
  * `slice::partition_point`: modelled as the bisection loop of the Rust
    standard library (1.85+).
  * `crunchy::unroll!`: an ordinary counted loop (the unroll limits 7/64,
    5/256 are at least the loop bound for every `N` allowed by the
    compile-time assertion).
  * `itertools::multi_cartesian_product`: last factor varies fastest.
  * Pointer width 64 bit; integer overflow panics, as in the profiles of
    `Cargo.toml`. Builds that wrap instead (release builds of a program that
    depends on the crate) are the subject of C109 and C110.

## 2. Shape of the model

* `Res α = ok a | err msg | panic`: `Result<_, &'static str>` plus panic.
  Every index operation, checked integer operation, slice conversion and
  `unwrap` is a `Res` computation that can return `panic`.
* `[T; N]` is `Fin N → T`; `&[T]` is `List T`; functions with a
  `out: &mut [T]` parameter return the pair (outcome, final buffer), so the
  buffer is visible after errors and panics too.
* The `fma` cargo feature is a Boolean parameter `fma` of the evaluators.
* Const-generic loops are `forRange` loops over a mutable state, exactly as in
  the source (`store[level][slot]`, `loc`, `dimprod`, `acc`, ...).

Files:

| file | content |
|---|---|
| `Model/Core.lean` | `Res`, `FloatOps`, checked integers, arrays, loops, `index_arr` |
| `Model/Search.lean` | `partition_point` |
| `Model/Multilinear/*.lean`, `Model/Nearest/*.lean`, `Model/Multicubic/*.lean` | N-d interpolators, one Lean file per Rust file (`Regular`, `Rectilinear`, `RegularRecursive`, `RectilinearRecursive`, `Mod`), one definition per Rust function: `new`, `interp`, `interp_one` (set-up loop, vertex loop, final blend), `populate`, `get_loc`, `interp_inner`, `check_bounds`, `interpn`, `interpn_alloc` |
| `Model/Multilinear.lean`, `Model/Nearest.lean`, `Model/Multicubic.lean` | import the files of each directory |
| `Model/OneDim.lean` | `one_dim` |
| `Model/Utils.lean` | `linspace`, `meshgrid` |
| `Model/Python.lean` | the Python function `interpn` and the argument unpacking of `src/python.rs` |
| `Model/JsonText.lean` | the text of dumped arrays: `json.dumps`, `float.__repr__`, `json.loads`, `float()` (CPython) |
| `Model/JsonDoc.lean` | the whole JSON document of a dumped interpolator: compact writer, parser, fields of the six classes (pydantic) |
| `Model/PythonClasses.lean` | the six Python classes: `new`, validation, `eval`, `eval_unchecked`, `check_bounds`, JSON dump and load |
| `Model/PythonShapes.lean` | the same with array shapes and, for `interpn`, mixed element types |
| `Model/PythonLayout.lean` | the same for numpy arrays with strides, read as the elements they address |
| `Model/PythonHeap.lean` | the same over numbered buffers that arrays may share: what is copied, read and written |
| `Model/Unchecked/*` | every function with integer arithmetic once more, with wrapping integers (builds without overflow checks) |
| `Model/Counted/*` | the N-d and 1-D evaluators once more in a monad that counts loop passes, reads of values, one-axis interpolations and comparisons (C115) |
| `Model/Exact.lean` | `FloatOps` for ordered fields with floor: exact arithmetic |
| `Spec/*.lean` | small independent specifications |
| `Lemmas/Forms.lean` | parametrised common forms of the near-identical Rust files (set-up loop, vertex loop, recursion, validation); proof devices only |
| `Lemmas/FormsEq.lean`, `FormsRec.lean`, `FormsNew.lean` | each function of each model file equals its common form (lemmas `…_form`) |
| `Lemmas/*.lean` | supporting lemmas |
| `Props/*.lean` | one file per group of properties, with non-vacuity examples |

The Rust code repeats nearly the same text in several files (flattened and
recursive evaluators, regular and rectilinear). The model repeats it too, so a
difference in one file only is a difference in one definition only, and the
theorems that compare files (C01–C04, C14, C27–C29) compare separate
definitions. Theorem statements refer to the per-file definitions; common forms
appear in proofs only.

## 3. Three arithmetic levels

1. **Law-free** (`[FloatOps T]` arbitrary): theorems hold for every float type,
   every rounding, NaN, infinities. Used for: flattened = recursive, absence of
   panics, constructors, batch semantics, dispatch, locality.
2. **Exact** (`K` a linearly ordered field with floor, e.g. ℚ, ℝ): numerical
   meaning (reproduction, node exactness, bounds, symmetry, regular =
   rectilinear). Real rounding is *not* covered by these theorems.
3. **Special values / rounding**: theorems under explicit hypotheses on the
   operations that IEEE 754 arithmetic satisfies. `Spec/Special.lean` states how
   NaN and infinities propagate (no law about finite results at all);
   `Spec/Rounding.lean` states correct rounding with unit roundoff `u`, underflow
   threshold `η` and overflow threshold `Ω` for `+ - * / mul_add` and exact
   comparisons, and the exactness laws (`ExactWhole`, `ExactIfFloat`). They are
   shown satisfiable by concrete non-trivial number types (`Spec/ExtNum.lean`,
   `Lemmas/RoundNum.lean`: rationals rounded to `p` bits). The floats of
   `Lemmas/RoundNum.lean` (`float_rounds`, `float_compare`, `float_whole`,
   `float_exact`, `ExtNum.special`) satisfy all the laws at once.
   `Spec/BinaryFormat.lean` and `Spec/Ieee.lean` define IEEE 754 binary
   arithmetic itself (`F32`, `F64`: signed zeros, subnormal numbers, infinities,
   NaN, round to nearest even, fused multiply-add), and `Lemmas/Ieee.lean` proves
   every law of this level for it, so the theorems of this level hold for `f32`
   and `f64` without further hypotheses (C81 to C90 and C92 state their results for these types).
   Simplified: there is a single NaN (no payload, no sign).

## 4. Properties

| id | model and proof plan |
|---|---|
| C01–C04 | Level 1. The vertex loop (`store` scheme) is shown, by an invariant over the vertex counter, to compute a balanced expression tree; `populate` computes the same tree by structural induction. With `fma` the index/slope expressions differ between the two sources, so the `fma` variants are stated at level 2 (C02 holds for both at level 1). |
| C05–C07 | Level 1. From `new = ok` derive index bounds for every access; integer bounds from the length of `vals` (a Rust slice has at most `isize::MAX` elements). The cubic regular exception is proved as an iff with a concrete witness. |
| C08 | Level 1. Case analysis of `new`; product overflow explicit. |
| C09, C10 | Level 1. Induction over the batch loop, buffer returned with every outcome. |
| C11–C13 | Level 1. Case split on the number of dimensions. |
| C14 | Level 1. `new` and `interp_one` for different `MAXDIMS` reduce to the same tree. |
| C15 | Level 1. Tree depends on leaves only. |
| C16 | Level 1. Result is an element of `vals`. |
| C17 | Level 1; the limits written out for floats (`C17_ieee_*`, also `C07_ieee`) and in exact arithmetic (`C17_exact`). |
| C18 | Level 1 (range, comparison count) and for a linear order (correctness). |
| C19, C37 | Level 2. Tree with linear node functions = weighted corner sum, by induction on dimensions. |
| C20, C30 | Level 2. |
| C21, C31, C32 | Level 2. General lemma: if every axis operator reproduces a class of 1-D functions, the tree reproduces functions separately in those classes. |
| C22 | Level 2. Convexity through the tree. |
| C23, C33 | Level 2 over ℝ. Global basis functions in each axis are continuous / C1; the interpolant is a finite sum of products. |
| C24 | Level 2. From C19 form. |
| C25 | Level 2. |
| C26 | Level 2. Reindexing of the corner sum. |
| C27–C29 | Level 2. 1-D operators coincide; then trees. |
| C34, C35 | Level 2 / ℝ. |
| C36 | Level 2. |
| C38, C39 | Level 1 for the exact flag expression, level 2 for its meaning. |
| C40–C45 | one_dim model. |
| C46 | Level 1. Per type: the strides left by the set-up loop (flattened) or the stride loop (recursive) address the C-order entry; the rest is pure arithmetic. |
| C47, C48 | utils model. |
| C49, C50 | Python model: control flow of `interpn` and the length of the flag buffer. |
| C51, C52 | Level 2. |
| C53 | Level 3, rounding. Forward error of the blend tree by induction over the axes; the weights are those computed. |
| C54 | Level 3, special values: NaN or infinite observations. |
| C55 | Level 2. |
| C56 | Level 3, special values: NaN or infinite stored values; the set of leaves that reach the result is exactly the stencil. |
| C57 | Level 3, rounding, end to end for rectilinear grids: error of the computed weights plus C53. |
| C66 | Level 3, rounding, end to end for regular grids: the computed position is off by at most δ, so the selected cell contains a point within δ steps of the observation; Lipschitz bound of the exact interpolant plus the error of the weights plus C53. |
| C67, C68 | Level 3, exactness: `ExactIfFloat`, an operation is exact whenever its exact result is a finite float. Relation between computed and stored values carried through the axes (`axisByAxis_rel`). |
| C69 | Level 3, rounding, multicubic on rectilinear grids, observation in the grid range: error of each slope, coefficient and Horner step (`Lemmas/RoundingCubic.lean`: a computed number is tracked by its error in units of `u` times a scale and by its size), accumulated over the axes with the amplification factor of C63. Extrapolation is not covered. |
| C70 | Level 3, rounding, multicubic on regular grids, observation in the grid range: as C69, plus the error of the relative position and the possible selection of a neighbouring footprint or boundary rule; adjacent pieces meet at the nodes and are Lipschitz. Extrapolation is not covered. |
| C71, C72 | Level 2. One axis rule of the tensor product is an evaluation at a node (C71) or reproduces constants (C72), so the axis can be removed (`axisByAxis_pick`, `axisByAxis_const`). |
| C73 | Level 2. Cells, slopes and nearest nodes of a range of nodes are those of the whole axis (`Lemmas/Subgrid.lean`). |
| C74 | Level 2. Every cell of the finer axis lies in a cell of the coarser one, where the interpolant is affine in each coordinate and so is reproduced. |
| C75 | Level 2. C51 applied to the data plus and minus `S` times the coordinate. |
| C76 | Level 2. |
| C77 | Level 3 (rounding): standard model, `≤` exact, 2 and 1/2 representable; `NearestWithin` is the specification. |
| C81–C83 | Level 3 for the concrete types `F32`, `F64`: C57, C66, C69, C70, C77 with the laws discharged by `Lemmas/Ieee.lean` and the bounds simplified (`Lemmas/SimpleBounds.lean`). |
| C84, C86 | `Ieee f`, no magnitude hypotheses: a predicate (or order) closed under the computed blend with a weight in [0, 1] or NaN (`Lemmas/IeeeSign.lean`, `Lemmas/IeeeMono.lean`), carried through the axes. Rests on monotonicity of rounding (`roundQ_mono`). Rectilinear grids only: on regular grids C84 is false (counterexample). |
| C85, C88 | `Ieee f`: monotonicity of rounding and the error of a rounded difference. |
| C87 | C81 with C22. |
| C89 | `Ieee f` for every format `f`: a relation on values closed under the operations the code applies to data (`Lemmas/DataRel.lean`) is inherited by results; rounding commutes with negation (`Lemmas/IeeeNeg.lean`). `SameOutcome`, `Opposite`, `SameValue` are defined in `Spec/DataRel.lean`. |
| C90 | `Ieee f`, then `F64` and `F32`: error of `y0 + slope * dx` (`Lemmas/RoundingOneDim.lean`) and of the computed nodes (`Lemmas/RoundingOneDimRegular.lean`); usable grids are described in `Spec/IeeeGrid1D.lean`. |
| C91 | Exact arithmetic: perturbation of the tensor of 1-D rules (`Lemmas/NodeErrors.lean`). |
| C92 | `Ieee f`, then `F64` and `F32`: nodes of detected grids and errors slightly outside the range (`Lemmas/DetectRegular.lean`), joined with C91, C81, C49 and C10/C11. |
| C93 | exact `K`; `Rounds` for any format; `F64` and `F32`: amplification of the end-cell quadratic and its tangent, footprints and positions outside the range (`Lemmas/CubicNear.lean`), accumulated as in C69/C70. |
| C94 | `F64` and `F32` against functions of real variables: C81, C82, C92 composed with C64, C65, C22 and C63; exact interpolation over ℚ and over ℝ identified (`Lemmas/RealData.lean`). |
| C95 | `F64` and `F32`; `pyInterpn` with `"nearest"`: C83/C77 near the range, the node bound of C92 (`Lemmas/DetectAxis.lean`) and the batch theorems (`Lemmas/PythonCall.lean`). |
| C96 | Exact arithmetic: one-axis Lipschitz bound of the glued Hermite pieces (`Lemmas/CubicLip.lean`), tensor step `axisByAxis_vary`. |
| C97 | Exact arithmetic: same relative position on the moved grid, slopes as functions of the width ratio (`Lemmas/CubicMoved.lean`), then the Lipschitz bound of C96. |
| C98 | `F64` and `F32`; `pyInterpn` with `"cubic"`: C82/C93 for the routines, C97 for the displaced nodes, `Lemmas/PythonCall.lean` for the call. |
| C99 | Power-of-two change of units: `Ieee.ScaledBy` (Spec/PowerOfTwo); subtraction, addition and node computation commute with scaling, quotients and comparisons are unchanged (Lemmas/PowerOfTwo), Python through `BatchSpec.transfer` |
| C100 | Multilinear extrapolation: stability `(1 + 2 lam)^N` (sharp), rounding error by scaling the C81 bounds (`blendError_scale`), weights via `weight_nearRange` |
| C101 | Level 1, refinement: the model with buffers and strides is related to the model with shapes and contents (C78-C80); `write` is shown to change the elements of `out` only. |
| C102 | Level 3: each result is within the bound of C81 or C82 of the exact one, and the exact results agree (C26-C28; independence of evaluator and `fma`). |
| C103 | Level 1 (saturation class is never `Outside*`), level 2 (`cubicPiece` does not look at the flag in range), level 3 (C82 twice). |
| C104 | Level 3: the twelve theorems go from the arguments of `new` to the array returned by `eval(obs)` without `out` (with `out`: C60). `NpArray.values64`/`values32` are the arrays after conversion; the conversions are arbitrary in the theorems, IEEE 754 (`Spec/IeeeNumpy`) in the examples. |
| C105 | Level 2 (weights are non-negative inside the grid), level 3 (C81 twice); nearest and hold at level 1 from C16. |
| C106 | Level 2 (of the lines through neighbouring data points the one of the cell is the highest), level 3 (C81). |
| C107 | Level 3: C75, C51 and C96 in exact arithmetic, C81 and C82 for the rounding. |
| C108 | Level 1: a state monad over numbered buffers in which writes survive exceptions; refinement to the model of C101 (separate buffers), frame conditions, and induction over programs. |
| C109 | Level 1: simulation between the two models (`Le`: equal unless the left one panics), by congruence through every loop; the `_built` theorems use C05 and C07. |
| C110 | Level 1, constructors characterised like in C08; witnesses in the formal `f64` (DESIGN 6, finding 32). |
| C111 | Level 2 over ℝ. `axisByAxis_error_vary` carries the one-axis statements (`linPiece_error_diff`, `cubicPiece_error_diff`) through the other axes; the derivative forms use C33. |
| C112 | Level 1; C49, C58 and C59 composed, every exceptional case included. |
| C113 | C38, C39 and C85 give the distance from the range, C100 and C93 the amplification, C24 the constant part. |
| C114 | `Pointwise` (Spec/Chunks.lean) from C09/C10 for each branch of each entry point; then C49 and C59. |
| C115 | Counting monad (Model/Counted/Core.lean), evaluators copied into it (Model/Counted); `outcome` is a monad morphism (Lemmas/CountedErase.lean), exact counts by a small cost calculus: sums over loops, trailing zeros of the footprint index for the kernel count, tree recursion for the recursive methods (Lemmas/CountedCosts.lean). |
| C116 | The result at x' on G' is the result at x on G' moved by x - x' (C25); then the bounds for moved nodes (C91, C97) and changed values (C100, C63) apply. |
| C117 | Rounding is monotone and moves data by at most 2^-24 relative plus 2^-150 (Lemmas/SinglePrecision.lean); then C81 / C82 / C83 for `f64`, C81 / C82 / C83 or, where the converted observation may lie outside the converted grid, C93 / C100 / C119 for `f32`, and C116 between the two exact results. |
| C118 | Ieee f for every format f: an operation whose exact result has few digits is exact (`ExactIfFloat`); Spec/Dyadic.lean defines Multiple, Room and the fixed-point axes; Lemmas/Dyadic.lean, DyadicAxis.lean and DyadicCubic.lean count binary places and sizes of all intermediate results; Props/FixedPointOneDim.lean does so for the one-dimensional linear interpolators, which form a slope first. |
| C119 | On rectilinear axes rounding is monotone and an overflowing quotient compares like the number (Lemmas/IeeeNearestOut.lean); on regular axes the position and the weight have relative errors that cannot cross the end cell. |
| C120 | The number of nodes below the observation decreases by the number of nodes cut off (Lemmas/Crop.lean), so cell, flag and node coordinates agree; no law of arithmetic besides transitivity of `<` is needed. |
| C121 | The relation "equal if the result of the smaller table is finite" is preserved by the operations on data (`dataRel_sameIfFinite`); along the redundant axis all differences are 0 and every step is exact (Lemmas/DropAxis.lean). |
| C122 | `axisByAxis_contract`: the fold over the axes starts with the innermost, that is the first axis (Lemmas/Contract.lean). |
| C123 | Level 2. Uniqueness: evaluation axis by axis reproduces every function of the described shape (`axisByAxis_reproduce'`); existence: the interpolant, as a function of one coordinate, is the 1-D interpolant of some data (`axisByAxis_axis`). |
| C124 | Graded relation `Up k m`: if the scaled number is finite, it is 2^k times a multiple of 2^m; sums keep m, products and quotients by coordinates lower it (Lemmas/ValueScale.lean; one dimension in ValueScaleOneDim.lean). |
| C125 | The cell number is the number of nodes below the observation minus one, clamped; cropping (C120) is proved for axes with repeated nodes. |
| C126 | Linearity for any number of tables (Lemmas/Superposition.lean), stability (C22, C63) and the accuracy of C81, C82. |
| C127 | Weights are exactly 0 or 1 (cell_node, width_cases); lerp_one_close bounds the blend with weight 1; axisByAxis_close adds the errors up over the axes. |
| C128 | Subtraction, division, floor and the cast keep the order (sub_mono, div_mono, floor_mono, toIsize_mono); within a cell the offset is monotone, across cells it cannot undo the step. |
| C129 | The affine piece of a cell maps the cell of the nodes onto the cell of the values (linPiece_inverse). In `f64` and `f32` with C81, C75 and, as the result may leave the range of the values by rounding, C100. |
| C130 | Model/JsonText.lean. Rounding is to nearest (roundQ_nearest) and neighbouring floats are a unit roundoff apart (spacing), so digits within half a unit roundoff read as the float; the scanner is run on the printed text notation by notation. |
| C131 | Model/JsonDoc.lean: values, compact writer, recursive-descent parser, validation per class. Spec/JsonDoc.lean: grammar with free white space, reordering of fields. parse_writes by induction on the length of the text; parse_extend (what was read does not depend on the text behind it) gives the refusal of truncated documents. |
| C132 | Level 2 over ℝ. `integral_axisByAxis`: product measure and linearity in the values; one-axis integrals by splitting into cells (`integral_cells`) and an antiderivative of the Hermite cubic. |
| C133 | Level 3. `double_sub_fused`: multiplication by two is exact, so `two.mul_add(dy, -k)` equals `two * dy - k` if the latter is finite; lifted through the cells by the relation `SameIfFinite` and `axisByAxis_rel`. |
| C134 | Level 2. Hermite cubic with end slopes in [0, 3 chord]: the change is linear in the slopes and nonnegative at the four corners (`hermite_unit_mono`); cells glued by `cubicPiece_mono`; N dimensions through `multicubic_line`. One-dimensional tables in `f64` and `f32` with C82 (`table_line`, `ordered_float`). |
| C135 | Level 2. One axis at a time: `axisByAxis_replace_all` swaps one axis operator for another and adds up the differences; `nearest_linPiece` and `cubicPiece_linPiece` are the one-axis bounds. In `f64` and `f32` with C81 and C82 (`methods_float`), nearest against linear with C81 and C83 (`multilinear_end`). |
| C136 | Level 2. `cells_variation` writes a one-axis rule as a sum over cells of functions of the part of the cell that was passed; `axisByAxis_variation` carries it to N axes by duality (signs). At level 3, `C136_nearest_ieee`, and for the other methods the bound with C81 or C82 (`variation_float`). |
| C137 | Level 2. `axisByAxis_weights` writes a result as the sum over unit tables, `axisByAxis_support` and `cubicPiece_local` find the zero weights, the bound on the absolute values applies C63 to the table of signs. Level 3 adds C81 and C82. |
| C138 | Level 2. C22 and C63 with bounds around F(x), `exists_isNearest`; Heine-Cantor on the box (`box_modulus`). Level 3: `linear_modulus`, `cubic_modulus`, then C81, C82, C83. |
| C139 | Level 2. The Hermite cubic with the slopes written out (`cubicPiece_inner`, `cubicPiece_even`), then `axisByAxis_sum`. Level 3: C82. |
| C140 | Level 3. C92, C98, C95 (`interpn`, `Props/PythonTotal.lean`) and C104 (classes, `Props/ClassTotal.lean`) for the rounding, `linear_total`, `cubic_total`, `linear_modulus`, `cubic_modulus` for the method error. |
| C58–C62 | Python class model; generic in the two float types; numpy casts and JSON printing are parameters (`Numpy`, `Json`), with the round-trip facts as hypotheses (`Faithful`). In IEEE 754 arithmetic the float32 round trip is proved (`C62_f32_round_trip`, `Props/IeeeJson.lean`), and C130 proves that JSON text keeps float64, so no hypothesis remains (`C130_regular`, `C130_rectilinear`). |
| C78 | Refinement: `npInterpn` (shapes, element types) equals `pyInterpn` on the flattened contents. |
| C79, C80 | Python model with shapes and element types. |
| C63 | Level 2. Bound on the cubic weights from the ratio of adjacent cell widths (`Lemmas/Accuracy.lean`). |
| C64, C65 | Level 2 over ℝ. Derivative bounds in `Spec/Accuracy.lean`, remainders in `Lemmas/Taylor.lean`; per-axis errors accumulated by `axisByAxis_error`. |

## 5. What is modelled and what is not

Modelled, function by function: `src/lib.rs` (`index_arr`, re-exports have no
content), `src/multilinear/*.rs`, `src/multicubic/*.rs`, `src/nearest/*.rs`,
`src/one_dim/*.rs`, `src/utils.rs`, the functions of `src/python.rs`,
`src/interpn/__init__.py`, the six class files of `src/interpn/`, and
`src/interpn/serialization.py`.

Not modelled:

* Running time beyond the operation counts of C115 (construction and length checks are
  not counted), memory use, code generation, SIMD flags, `#[inline]`.
* Strides in bytes, and `np.zeros_like` keeping the axis order of its argument. An
  array in memory is modelled by a buffer, an offset, a shape and strides counted in
  elements (`Model/PythonLayout.lean`); multi-dimensional grids in fields of class
  objects are outside.
* The inside of rust-numpy's borrow check. `Model/PythonHeap.lean` models the memory that
  numpy arrays share; of the check it assumes `Borrow.Lawful`: no read-only `out`, no `out`
  with an element in common with an input, and a writeable `out` in a buffer of its own is
  accepted. Which exception is raised is left open.
* Rust slices are assumed to satisfy Rust's own guarantee (at most `isize::MAX`
  elements, hypothesis `IsSlice`); every `usize` converts to the float type
  (hypothesis `TotalOfUsize`), as is the case for `f32` and `f64`.
* Parts of JSON that dumps do not use (escapes, `null`, numbers outside of strings that are
  not whole) and pydantic's conversions of other types (`Model/JsonDoc.lean`).
* Test and benchmark code.

Simplifications are noted at each definition. The main ones: loops unrolled by
`crunchy::unroll!` are counted loops; `vals` etc. are borrowed in Rust and owned
here; error strings are kept verbatim.

## 6. Findings (code differs from what a user may expect)

Each is a theorem about the model (name in brackets), so it is a fact about the
code as far as the model is faithful.

1. **Bounds checks flag points on the boundary when `atol = 0`**, and never flag
   NaN. The comparison is `>= atol`, not `> atol`. [`C38_C39_tolerance`,
   `C54_bounds_regular`, `C54_bounds_rectilinear`]. The regular check panics if
   a dimension is 0 or `starts`/`steps` is too short [`C38_panics`].
2. **Python `interpn(check_bounds_with_atol=…)` cannot work in more than one
   dimension**: the flag buffer is `np.zeros_like(out.shape)` of a flattened
   array, length 1, and the Rust check rejects it. [`C50_multidim`]. The classes
   use a buffer of the right length [`C61_regular_f64` …].
3. **Python `interpn(out=…)`**: `out or np.zeros_like(...)` raises `ValueError`
   for an `out` of two or more elements, and discards a one-element `out` that
   holds 0. [`C49_out`]
4. **More than 8 observation arrays panic** through Python [`C49_too_many`].
5. **Recursive constructors panic** instead of returning `Err` when the number
   of axes exceeds `MAXDIMS` [`C14_*_panics`]; **`multicubic` entry points panic**
   on mismatched lengths in 1–4 dimensions where the multilinear ones return
   `Err` [`C12_*_panics`]; `interpn_alloc` panics without observations [`C13_*`];
   `linspace` panics for 0 points, and its step for 1 point divides by zero
   [`C47_panic`].
6. **Overflow of the product of the dimensions panics** [`C08_*`, field
   `overflow`].
7. **Cubic regular grids**: an observation whose cell number saturates at
   `isize::MIN` panics (subtraction overflow) in the flattened and recursive
   evaluators; every other observation is fine [`C07_multicubic_regular`].
8. **Rectilinear constructors compare only the first two entries** of each grid
   [`C08_multilinear_rectilinear` …]; the Python classes compare all
   [`C58_rectilinear`].
9. **NaN observations**: regular N-d grids return `Err`; nearest on
   rectilinear grids silently returns a stored value; the 1-D piecewise-constant
   interpolators on rectilinear grids return a stored value
   [`C54_nearest_rectilinear`, `C54_rectilinear_1d`].
10. **`Left1D`/`Right1D` differ between regular and rectilinear grids at nodes**
    [`C42_*`]: `C42_left_regular` and `C42_left_rectilinear` give different values
    at a node.
11. **`LinearHoldLast1D` on a regular grid can return `Err` far outside** although
    the held value is defined (the cell number is not representable)
    [`C41_cases` needs `Representable`].
12. **`RegularGrid1D` does not validate** the step or the number of values
    [`C45_regular_new`].
13. **`fma` changes rounding differently in the flattened and recursive
    evaluators** (except multilinear rectilinear), so C01, C03, C04 are exact
    equalities only without `fma` or in exact arithmetic.
14. **A failing batch leaves a written prefix**: outputs before the failing
    observation are written, the rest is untouched [`C09_*`].
15. **Zero dimensions** are reported as "Dimension exceeds maximum" [`C11_*_errors`].
16. **Python classes accept objects that can never be evaluated**: too few nodes
    [`C60_too_few_nodes_f64`], `starts` of another element type in
    `MultilinearRegular` and `MulticubicRegular` (examples beside
    `C62_rectilinear`, `C59_type_error_regular`), negative dimensions with the
    right product [`C59_overflow`].
17. **`new` with integer `vals` silently uses float32** [`C58_new_f32`].

18. **A stored value is not always returned at its node in floating point**: the
    blend is `v0 + t * (v1 - v0)`, so at `t = 1` the result is `v0 + (v1 - v0)`
    rounded twice; with values `2^60` and `1` the result at the second node is `0`
    [`C68_counterexample`]. The error is within the bounds C57 and C66.
19. **`eval` of the Python classes rejects arrays that are not one-dimensional**
    with `TypeError`, although the documentation promises a result shaped like
    `obs[0]` [`C80_regular_type_error`, `C80_rectilinear_type_error`]; `interpn`
    accepts any shape [`C78_interpn_f64`].
20. **In `interpn`, whether grids of another element type are accepted depends on
    their spacing**: regular grids are converted, rectilinear ones raise
    `TypeError` [`C79_grids_regular_f64`, `C79_grids_rectilinear_f64`].

21. **Non-negative data can give a negative result on a regular grid** at an
    in-range observation, because the cell number is computed by a division and
    the lower node by a product, which round differently
    [`C84_regular_counterexample`]; on rectilinear grids it cannot [`C84_nonneg`].
22. **The computed interpolant can exceed the largest stored value** (by rounding)
    [`C87_overshoot`], and is not monotone for monotone data across a node
    [`C86_two_cells_counterexample`].
23. **`linspace` does not always include the end point**, contrary to its
    documentation: `linspace(0, 1, 50)` ends below 1, so that an observation at 1
    is out of range [`C88_endpoint_counterexample`]. With one point it returns NaN
    [`C88_single`].

24. **`Nearest1D` returns the wrong end value far above the grid**: it compares the
    rounded distances to the last two nodes, which coincide for a large
    observation, and a tie goes to the left. On nodes 0, 1 the observation `2^60`
    gets the value of node 0; N-dimensional nearest interpolation returns that of
    node 1 [`C90_nearest_far`].
25. **`Linear1D` computes a slope, which can overflow**: on nodes 0, `2^-100` with
    values 0, `2^1000` the result at node 0 is NaN; `multilinear` returns 0
    [`C90_slope_overflow`]. `Linear1D` can also exceed the largest stored value by
    rounding [`C90_overshoot`].
26. **Grids made by `numpy.linspace` are usually not recognised as regular** by the
    Python function `interpn`: the check compares computed spacings without a
    tolerance, and those of `linspace(0, 1, 11)` differ in the last digits
    [`C92_linspace_not_detected`]. The rectilinear routine is used instead; the
    results are accurate either way [`C92_interpn_f64`].

27. **The 1-D linear interpolators depend on the unit of the coordinate** in the
    subnormal range: they compute the slope `(y1 - y0) / (x1 - x0)` first, which may
    underflow in one unit and not in another. Values `0, 2^-1074` on the grid `0, 2`
    give `0` at the right node instead of `2^-1074`; on the grid `0, 1` the node value
    is returned [example in `Props/PowerOfTwo.lean`]. The N-D evaluators divide
    coordinates by coordinates only and are exactly invariant under powers of two
    (C99).

28. **Non-contiguous arrays raise `TypeError`, not `AssertionError`**, in `eval` of the
    classes [`C101_regular_type_error`, `C101_rectilinear_type_error`]: the refusal
    comes from the conversion to a Rust slice. The documentation of `eval` lists
    `AssertionError` for data that is not contiguous.
29. **One end of each axis counts as outside the grid in cubic interpolation**: the
    first node of a rectilinear axis and the last node of a regular axis are evaluated
    by the extrapolation branch. The effect is rounding only: with
    `linearize_extrapolation` the stored value is returned, without it e.g.
    `0.09999999999999998` for the stored `0.1` [`C103_end_nodes`].
30. **Evaluation in place is refused**: an `out` that has an element in common with an
    observation array (or a field of the object) raises and nothing is written
    [`C108_refused_regular`, `C108_refused_rectilinear`].
31. **`interpn` can write only into an `out` of one element that is not zero**: two or
    more elements raise `ValueError` with memory unchanged [`C108_interpn_ambiguous`],
    an `out` holding zero is ignored and a new array is returned (finding 3's `out or
    ...`, seen in memory).
32. **Overflow checks do not reach users of the crate**: Cargo ignores the profile of a
    dependency, so a release build of a program that uses the crate wraps. Then a
    table of one value is accepted for dimensions 274177 and 67280421310721
    [`C110_wrapped_shape`], and cubic interpolation at cell number `isize::MIN`
    extrapolates from the wrong end of the axis [`C110_cubic_far_low`]. Everywhere
    else a constructed interpolator is unaffected [C109].
33. **The documented `O(2^ndims)` and `O(4^ndims)` count reads and interpolations only**:
    the flat evaluators make `1 + 2N + 2^N (3N + 1)` passes through loop bodies per
    observation, so index arithmetic grows as `N 2^N`; the search makes one comparison
    more than the documented `log2(gridsize)`, rounded up, per axis [C115].
34. **Repeated nodes are accepted** on a rectilinear axis after the first pair (finding on
    the constructors' checks above). They act as jumps in multilinear, nearest and 1-D
    interpolation [C125]; a repeated last node gives infinities or NaN above it
    [`C125_counterexample_end`], and a repeated node in a cubic footprint gives NaN
    [`C125_counterexample_cubic`].
35. **The class is not part of a dump**: a multilinear dump is accepted by the
    nearest-neighbour class and vice versa [`C131_regular_fields`]; only the cubic classes
    are told apart, by their additional field [`C131_cubic_refused`].
36. **Values within a factor of two of the largest float can give infinity**: the difference
    of two neighbouring values overflows if they have opposite signs
    [`C87_overflow_opposite`], and with values `3 * 2^970` and the largest float the
    result at the node that holds the latter is infinite [`C87_overflow_same_sign`]. The
    accuracy properties assume values up to `2^1020` (`2^124` for `f32`).
37. **With `fma` the two evaluators of a kind differ only in three situations** [C133]: an
    overflow of twice the boundary difference in the recursive regular or the flattened
    rectilinear cubic where the other evaluator stays finite,
    linearized extrapolation is fused by the recursive rectilinear cubic only, and cell
    offsets are fused by the flattened regular multilinear evaluator only
    [`C133_counterexample`]. The free
    functions use the recursive evaluators from 7 dimensions (cubic: 5) on.

No property of `properties.jsonl` is stated in a form the code violates: where
the natural expectation is false the property describes the actual behaviour and
the exception is listed here.

## 7. Wrong programs tried

`seeded/LOG.jsonl` lists the edits made to scratch copies of the model. How to read it:

- `proofs_failed_directly` is what Lean was seen to reject.
- `theorems_failed` is computed from it: the property theorems that use a rejected
  proof, in the dependency graph of the version edited or of the present one. They were
  not rebuilt one by one, so a theorem in the list may have another proof that survives.
- Batches `M`, `U`, `V`, `W` and other two-digit ids went through the whole library,
  replacing each rejected proof and building on. The systematic edits (ids `S....`)
  stopped at the first rejected proof and name only that one.
- An empty `theorems_failed` with an example or lemma in `proofs_failed_directly` means
  that no property theorem is known to have failed for that edit.
- Edits came at different times, so many were made to earlier versions.
