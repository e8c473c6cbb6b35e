import Verif.Model.PythonClasses

/-! Model of the Python code with numpy arrays that have a shape and an element type: the function
`interpn` (`/repo/src/interpn/__init__.py`) and the evaluation of the classes.

`Model/Python.lean` models `interpn` for flat arrays that all have the element type of `vals`;
`Model/PythonClasses.lean` models the classes for flat arrays. Here shapes are added, and for
`interpn` also arrays of mixed element types.

Strides and contiguity are in `Model/PythonLayout.lean`, aliasing of `out` with an input in
`Model/PythonHeap.lean`. -/

set_option autoImplicit false

namespace Interpn
open FloatOps

/-- A numpy array: shape, and contents in C order. -/
structure NdArray (F32 F64 X : Type) where
  shape : List Nat
  contents : NpArray F32 F64 X
  deriving DecidableEq

/-- Arithmetic of the other element type (integers, say), as far as `_check_regular` uses it. -/
structure NumpyX (X : Type) where
  sub : X → X → X
  eq : X → X → Bool

variable {F32 F64 X : Type} [FloatOps F32] [FloatOps F64]

namespace NdArray

/-- `np.zeros_like`: same shape, same element type. -/
def zerosLike (np : Numpy F32 F64 X) (a : NdArray F32 F64 X) : NdArray F32 F64 X :=
  { shape := a.shape, contents := a.contents.zerosLike np }

end NdArray

namespace NpArray

/-- `bool(a)`: an array of two or more elements raises, one element is tested against 0, an empty
array is false (a deprecation in recent numpy). -/
def truth (np : Numpy F32 F64 X) (nx : NumpyX X) : NpArray F32 F64 X → Except PyExc Bool
  | f32 [] => .ok false
  | f64 [] => .ok false
  | other [] => .ok false
  | f32 [v] => .ok (!feq v zero)
  | f64 [v] => .ok (!feq v zero)
  | other [v] => .ok (!nx.eq v np.zeroX)
  | _ => .error (.valueError "The truth value of an array is ambiguous")

/-- Differences of consecutive entries compared with the first, `np.all(dgrid == dgrid[0])` for
`dgrid = np.diff(grid)`, computed in the element type of the grid
(`/repo/src/interpn/__init__.py` 201-202). No difference at all: `dgrid[0]` raises. -/
def uniform (nx : NumpyX X) : NpArray F32 F64 X → Except PyExc Bool
  | f32 g =>
    match npDiff g with
    | [] => .error .indexError
    | d0 :: ds => .ok ((d0 :: ds).all fun d => feq d d0)
  | f64 g =>
    match npDiff g with
    | [] => .error .indexError
    | d0 :: ds => .ok ((d0 :: ds).all fun d => feq d d0)
  | other g =>
    match g.zipWith (fun a b => nx.sub b a) g.tail with
    | [] => .error .indexError
    | d0 :: ds => .ok ((d0 :: ds).all fun d => nx.eq d d0)

/-- `len(grid)`. -/
def size : NpArray F32 F64 X → Nat
  | f32 d => d.length
  | f64 d => d.length
  | other d => d.length

/-- `grid[0]` and `grid[1] - grid[0]` stored as float64: the difference is taken in the element type
of the grid, then converted (`/repo/src/interpn/__init__.py` 104-105). -/
def startStep64 (np : Numpy F32 F64 X) (nx : NumpyX X) : NpArray F32 F64 X → Except PyExc (F64 × F64)
  | f64 (a :: b :: _) => .ok (a, b -. a)
  | f32 (a :: b :: _) => .ok (np.f64of32 a, np.f64of32 (b -. a))
  | other (a :: b :: _) => .ok (np.f64ofX a, np.f64ofX (nx.sub b a))
  | _ => .error .indexError

/-- `grid[0]` and `grid[1] - grid[0]` stored as float32: the difference is taken in the element type
of the grid, then converted (`/repo/src/interpn/__init__.py` 104-105). -/
def startStep32 (np : Numpy F32 F64 X) (nx : NumpyX X) : NpArray F32 F64 X → Except PyExc (F32 × F32)
  | f32 (a :: b :: _) => .ok (a, b -. a)
  | f64 (a :: b :: _) => .ok (np.f32of64 a, np.f32of64 (b -. a))
  | other (a :: b :: _) => .ok (np.f32ofX a, np.f32ofX (nx.sub b a))
  | _ => .error .indexError

end NpArray

/-- `_check_regular`, `/repo/src/interpn/__init__.py` 197-203, `acc` is `is_regular`. -/
def npCheckRegular (nx : NumpyX X) : Bool → List (NpArray F32 F64 X) → Except PyExc Bool
  | acc, [] => .ok acc
  | false, _ :: rest => npCheckRegular nx false rest
  | true, g :: rest => do
    let b ← g.uniform nx
    npCheckRegular nx b rest

/-- `out or np.zeros_like(obs[0])`, `/repo/src/interpn/__init__.py` 86. -/
def npOutOr (np : Numpy F32 F64 X) (nx : NumpyX X) (out : Option (NdArray F32 F64 X))
    (obs : List (NdArray F32 F64 X)) : Except PyExc (NdArray F32 F64 X) := do
  let fresh : Except PyExc (NdArray F32 F64 X) :=
    match obs with
    | [] => .error .indexError
    | o :: _ => .ok (o.zerosLike np)
  match out with
  | none => fresh
  | some a =>
    if ← a.contents.truth np nx then .ok a else fresh

/-- `interpn` from the regularity check on, for `vals` of float64
(`/repo/src/interpn/__init__.py` 100-192): `obs`, `grids`, `out` are the flattened arrays. The Python
float `atol` is a float64, converted by PyO3. PyO3 raises `TypeError` for an array of another element
type. -/
def npInterpn64 (np : Numpy F32 F64 X) (nx : NumpyX X) (fma : Bool)
    (obs grids : List (NpArray F32 F64 X)) (vals : List F64) (method : String)
    (out : NpArray F32 F64 X) (lin assumeRegular checkB : Bool) (atol : F64) :
    Except PyExc (RawCall × List F64) := do
  let regular ← if assumeRegular then pure true else npCheckRegular nx true grids
  let params ← if regular then pyEach (NpArray.startStep64 np nx) grids else pure []
  let dims := if regular then grids.map NpArray.size else []
  let starts := params.map Prod.fst
  let steps := params.map Prod.snd
  if checkB then
    let flags ←
      if regular then do
        let obs ← pyEach NpArray.asF64 obs
        if !unpackOk obs then .error .panicException
        else pyOfRes (checkBoundsRegular dims starts steps obs atol [false])
      else do
        let grids ← pyEach NpArray.asF64 grids
        let obs ← pyEach NpArray.asF64 obs
        if !(unpackOk grids && unpackOk obs) then .error .panicException
        else pyOfRes (checkBoundsRectilinear grids obs atol [false])
    if flags.any id then .error (.valueError "Observation points violate interpolator bounds")
  let call ← pyDispatch .float64 regular method
  let r ←
    if regular then do
      let obs ← pyEach NpArray.asF64 obs
      let out ← out.asF64
      rawRegular fma call.method dims starts steps vals lin obs out
    else do
      let grids ← pyEach NpArray.asF64 grids
      let obs ← pyEach NpArray.asF64 obs
      let out ← out.asF64
      rawRectilinear fma call.method grids vals lin obs out
  return (call, r)

/-- `interpn` from the regularity check on, for `vals` of float32
(`/repo/src/interpn/__init__.py` 100-192): `obs`, `grids`, `out` are the flattened arrays. The Python
float `atol` is a float64, converted by PyO3. PyO3 raises `TypeError` for an array of another element
type. -/
def npInterpn32 (np : Numpy F32 F64 X) (nx : NumpyX X) (fma : Bool)
    (obs grids : List (NpArray F32 F64 X)) (vals : List F32) (method : String)
    (out : NpArray F32 F64 X) (lin assumeRegular checkB : Bool) (atol : F64) :
    Except PyExc (RawCall × List F32) := do
  let regular ← if assumeRegular then pure true else npCheckRegular nx true grids
  let params ← if regular then pyEach (NpArray.startStep32 np nx) grids else pure []
  let dims := if regular then grids.map NpArray.size else []
  let starts := params.map Prod.fst
  let steps := params.map Prod.snd
  if checkB then
    let flags ←
      if regular then do
        let obs ← pyEach NpArray.asF32 obs
        if !unpackOk obs then .error .panicException
        else pyOfRes (checkBoundsRegular dims starts steps obs (np.f32of64 atol) [false])
      else do
        let grids ← pyEach NpArray.asF32 grids
        let obs ← pyEach NpArray.asF32 obs
        if !(unpackOk grids && unpackOk obs) then .error .panicException
        else pyOfRes (checkBoundsRectilinear grids obs (np.f32of64 atol) [false])
    if flags.any id then .error (.valueError "Observation points violate interpolator bounds")
  let call ← pyDispatch .float32 regular method
  let r ←
    if regular then do
      let obs ← pyEach NpArray.asF32 obs
      let out ← out.asF32
      rawRegular fma call.method dims starts steps vals lin obs out
    else do
      let grids ← pyEach NpArray.asF32 grids
      let obs ← pyEach NpArray.asF32 obs
      let out ← out.asF32
      rawRectilinear fma call.method grids vals lin obs out
  return (call, r)

/-- Python `interpn`, `/repo/src/interpn/__init__.py` 48-194. Returns the raw routine that was called
and the returned array, `out.reshape(outshape)`. -/
def npInterpn (np : Numpy F32 F64 X) (nx : NumpyX X) (fma : Bool)
    (obs grids : List (NdArray F32 F64 X)) (vals : NdArray F32 F64 X) (method : String)
    (out : Option (NdArray F32 F64 X)) (lin assumeRegular checkB : Bool) (atol : F64) :
    Except PyExc (RawCall × NdArray F32 F64 X) := do
  let out ← npOutOr np nx out obs
  let outshape := out.shape
  let obs := obs.map NdArray.contents
  let grids := grids.map NdArray.contents
  match vals.contents with
  | .other _ => .error (.assertionError "`interpn` defined only for float32 and float64 data")
  | .f64 v => do
    let (call, r) ←
      npInterpn64 np nx fma obs grids v method out.contents lin assumeRegular checkB atol
    return (call, { shape := outshape, contents := .f64 r })
  | .f32 v => do
    let (call, r) ←
      npInterpn32 np nx fma obs grids v method out.contents lin assumeRegular checkB atol
    return (call, { shape := outshape, contents := .f32 r })

/-! ### Classes -/

/-- `out if out is not None else np.zeros_like(obs[0])`, e.g.
`/repo/src/interpn/multilinear_regular.py` 120, 145. -/
def ndOut (np : Numpy F32 F64 X) (obs : List (NdArray F32 F64 X))
    (out : Option (NdArray F32 F64 X)) : Except PyExc (NdArray F32 F64 X) :=
  match out with
  | some o => .ok o
  | none =>
    match obs with
    | [] => .error .indexError
    | o :: _ => .ok (o.zerosLike np)

/-- Whether PyO3 can extract an array as `PyReadonlyArray1` or `PyReadwriteArray1`: exactly one
axis. -/
def NdArray.oneDim (a : NdArray F32 F64 X) : Bool := a.shape.length == 1

/-- `eval` with shapes (`RegularObj.eval` is the part after the arrays have been found to have one
axis). The arrays are passed to the raw routine as they are, and PyO3 raises `TypeError` for an array
with another number of axes; the dimensions are extracted before. -/
def RegularObj.evalNd (np : Numpy F32 F64 X) (fma : Bool) (m : RegularObj F32 F64)
    (obs : List (NdArray F32 F64 X)) (out : Option (NdArray F32 F64 X)) :
    Except PyExc (NdArray F32 F64 X) := do
  let outInner ← ndOut np obs out
  if obs.all NdArray.oneDim && outInner.oneDim then
    let r ← m.eval np fma (obs.map NdArray.contents) (some outInner.contents)
    return { shape := outInner.shape, contents := r }
  else
    let _ ← pyEach pyUsize m.dims
    .error .typeError

/-- `eval` with shapes, rectilinear grids. -/
def RectilinearObj.evalNd (np : Numpy F32 F64 X) (fma : Bool) (m : RectilinearObj F32 F64)
    (obs : List (NdArray F32 F64 X)) (out : Option (NdArray F32 F64 X)) :
    Except PyExc (NdArray F32 F64 X) := do
  let outInner ← ndOut np obs out
  if obs.all NdArray.oneDim && outInner.oneDim then
    let r ← m.eval np fma (obs.map NdArray.contents) (some outInner.contents)
    return { shape := outInner.shape, contents := r }
  else .error .typeError

/-- `check_bounds` with shapes: observations are flattened (`x.flatten()`), e.g.
`/repo/src/interpn/multilinear_regular.py` 196, 205. -/
def RegularObj.checkBoundsNd (np : Numpy F32 F64 X) (m : RegularObj F32 F64)
    (obs : List (NdArray F32 F64 X)) (atol : F64) : Except PyExc (List Bool) :=
  m.checkBounds np (obs.map NdArray.contents) atol

/-- `check_bounds` with shapes, rectilinear grids, e.g.
`/repo/src/interpn/multilinear_rectilinear.py` 187, 194. -/
def RectilinearObj.checkBoundsNd (np : Numpy F32 F64 X) (m : RectilinearObj F32 F64)
    (obs : List (NdArray F32 F64 X)) (atol : F64) : Except PyExc (List Bool) :=
  m.checkBounds np (obs.map NdArray.contents) atol

end Interpn
