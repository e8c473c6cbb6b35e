import Verif.Model.PythonShapes

/-! Model of the Python code with numpy arrays as they lie in memory: a buffer, the position of the
first element, a shape and strides. `Model/PythonShapes.lean` sees an array as its shape and its
contents in C order; here the copies made by `ravel` and `ascontiguousarray`, and the refusal of
`as_slice` (`/repo/src/python.rs` 49, 71-75 and copies) to read an array that is not contiguous, are
added.

Strides are counted in elements, not in bytes (an array whose strides are no multiple of the element
size cannot be made by slicing). Two arrays sharing one buffer are in `Model/PythonHeap.lean`. As in
the other files, the output buffer is returned on success only. -/

set_option autoImplicit false

namespace Interpn
open FloatOps

/-- A numpy array in memory: element `(i_0, i_1, …)` is
`buffer[offset + i_0 * strides_0 + i_1 * strides_1 + …]`. -/
structure Strided (α : Type) where
  buffer : List α
  offset : Nat
  shape : List Nat
  strides : List Int
  deriving DecidableEq

namespace Strided
variable {α : Type}

/-- Positions in the buffer of the elements, in C order (last index fastest). -/
def positionsFrom (offset : Int) : List Nat → List Int → List Int
  | [], _ => [offset]
  | _ :: _, [] => []
  | n :: shape, s :: strides =>
    (List.range n).flatMap fun i : Nat => positionsFrom (offset + i * s) shape strides

/-- Positions in the buffer of the elements, in C order. -/
def positions (a : Strided α) : List Int := positionsFrom a.offset a.shape a.strides

/-- The elements in C order, as seen from Python. -/
def contents (a : Strided α) : List α :=
  a.positions.filterMap fun p => if 0 ≤ p then a.buffer[p.toNat]? else none

/-- Strides of an array laid out in C order. -/
def cStrides : List Nat → List Int
  | [] => []
  | _ :: shape => (shape.prod : Int) :: cStrides shape

/-- The strides are those of the C order, except for axes of length 1, where they do not matter. -/
def cOrdered : List Nat → List Int → Bool
  | [], _ => true
  | _ :: _, [] => false
  | n :: shape, s :: strides => (n == 1 || s == (shape.prod : Int)) && cOrdered shape strides

/-- numpy's flag `C_CONTIGUOUS`: an array without elements has it, too. -/
def cContiguous (a : Strided α) : Bool := a.shape.any (· == 0) || cOrdered a.shape a.strides

/-- A copy in a buffer of its own, in C order. -/
def copy (a : Strided α) : Strided α :=
  { buffer := a.contents, offset := 0, shape := a.shape, strides := cStrides a.shape }

/-- `a.reshape(shape)` of an array in C order: another view of the same buffer. -/
def reshape (a : Strided α) (shape : List Nat) : Strided α :=
  { a with shape := shape, strides := cStrides shape }

/-- `a.ravel()`: a flat view of the same buffer if the array is contiguous, otherwise of a copy. -/
def ravel (a : Strided α) : Strided α :=
  if a.cContiguous then a.reshape [a.shape.prod] else a.copy.reshape [a.shape.prod]

/-- `np.ascontiguousarray(a)`. -/
def asContiguous (a : Strided α) : Strided α := if a.cContiguous then a else a.copy

/-- `as_slice()` of rust-numpy on an array with one axis: the elements one after the other in memory
from the first one on; an error, which PyO3 turns into `TypeError`, if the array is not contiguous. -/
def asSlice (a : Strided α) : Except PyExc (List α) :=
  if a.cContiguous then .ok ((a.buffer.drop a.offset).take a.shape.prod) else .error .typeError

/-- The array after its slice, `as_slice_mut()`, has been overwritten by `r`. -/
def write (a : Strided α) (r : List α) : Strided α :=
  { a with buffer := a.buffer.take a.offset ++ r ++ a.buffer.drop (a.offset + r.length) }

end Strided

/-- A numpy array in memory, with its element type. -/
inductive MemArray (F32 F64 X : Type) where
  | f32 (a : Strided F32)
  | f64 (a : Strided F64)
  | other (a : Strided X)
  deriving DecidableEq

namespace MemArray
variable {F32 F64 X : Type} [FloatOps F32] [FloatOps F64]

/-- `a.shape`. -/
def shape : MemArray F32 F64 X → List Nat
  | f32 a => a.shape
  | f64 a => a.shape
  | other a => a.shape

/-- The elements in C order, as seen from Python. -/
def contents : MemArray F32 F64 X → NpArray F32 F64 X
  | f32 a => .f32 a.contents
  | f64 a => .f64 a.contents
  | other a => .other a.contents

/-- `a.ravel()`. -/
def ravel : MemArray F32 F64 X → MemArray F32 F64 X
  | f32 a => .f32 a.ravel
  | f64 a => .f64 a.ravel
  | other a => .other a.ravel

/-- `np.ascontiguousarray(a)`. -/
def asContiguous : MemArray F32 F64 X → MemArray F32 F64 X
  | f32 a => .f32 a.asContiguous
  | f64 a => .f64 a.asContiguous
  | other a => .other a.asContiguous

/-- `np.zeros_like`. Simplification: numpy lays the new array out like the old one (as far as
possible); here it is in C order. The classes use one-dimensional arrays only, and `interpn` goes on
with `ravel`, which copies any other layout to C order. -/
def zerosLike (np : Numpy F32 F64 X) : MemArray F32 F64 X → MemArray F32 F64 X
  | f32 a => .f32 ⟨List.replicate a.shape.prod zero, 0, a.shape, Strided.cStrides a.shape⟩
  | f64 a => .f64 ⟨List.replicate a.shape.prod zero, 0, a.shape, Strided.cStrides a.shape⟩
  | other a => .other ⟨List.replicate a.shape.prod np.zeroX, 0, a.shape, Strided.cStrides a.shape⟩

/-- PyO3 extraction as `PyReadonlyArray1<f64>` or `PyReadwriteArray1<f64>`: element type and number of
axes are checked, the layout is not. -/
def extract64 : MemArray F32 F64 X → Except PyExc (Strided F64)
  | f64 a => if a.shape.length == 1 then .ok a else .error .typeError
  | _ => .error .typeError

/-- The same for `f32`. -/
def extract32 : MemArray F32 F64 X → Except PyExc (Strided F32)
  | f32 a => if a.shape.length == 1 then .ok a else .error .typeError
  | _ => .error .typeError

end MemArray

/-! ### Raw routines -/

section
variable {T : Type} [FloatOps T]

/-- `unpack_vec_of_arr!`, `/repo/src/python.rs` 41-53, from index `i` on:
`_arr[i] = inname[i].as_slice()?`, where the right side is evaluated first. -/
def unpackFrom (i : Nat) : List (Strided T) → Except PyExc (List (List T))
  | [] => .ok []
  | a :: rest => do
    let s ← a.asSlice
    if i < 8 then do
      let ss ← unpackFrom (i + 1) rest
      return s :: ss
    else .error .panicException

/-- The raw routines for regular grids (`/repo/src/python.rs` 55-84, 146-174, 221-253). `starts` and
`steps` are contiguous in every call made by the Python code, and given by their contents. -/
def memRawRegular (fma : Bool) (method : String) (dims : List Nat) (starts steps : List T)
    (vals : Strided T) (lin : Bool) (obs : List (Strided T)) (out : Strided T) :
    Except PyExc (Strided T) := do
  let obs ← unpackFrom 0 obs
  let vals ← vals.asSlice
  let o ← out.asSlice
  let r ← rawRegular fma method dims starts steps vals lin obs o
  return out.write r

/-- The raw routines for rectilinear grids (`/repo/src/python.rs` 118-143, 176-195, 255-285). -/
def memRawRectilinear (fma : Bool) (method : String) (grids : List (Strided T)) (vals : Strided T)
    (lin : Bool) (obs : List (Strided T)) (out : Strided T) : Except PyExc (Strided T) := do
  let grids ← unpackFrom 0 grids
  let obs ← unpackFrom 0 obs
  let vals ← vals.asSlice
  let o ← out.asSlice
  let r ← rawRectilinear fma method grids vals lin obs o
  return out.write r

end

variable {F32 F64 X : Type} [FloatOps F32] [FloatOps F64]

/-! ### The function `interpn` -/

/-- `out or np.zeros_like(obs[0])`, `/repo/src/interpn/__init__.py` 86. -/
def memOutOr (np : Numpy F32 F64 X) (nx : NumpyX X) (out : Option (MemArray F32 F64 X))
    (obs : List (MemArray F32 F64 X)) : Except PyExc (MemArray F32 F64 X) := do
  let fresh : Except PyExc (MemArray F32 F64 X) :=
    match obs with
    | [] => .error .indexError
    | o :: _ => .ok (o.zerosLike np)
  match out with
  | none => fresh
  | some a =>
    if ← a.contents.truth np nx then .ok a else fresh

/-- `interpn` from the regularity check on, for `vals` of float64
(`/repo/src/interpn/__init__.py` 100-192); all arrays have been flattened. -/
def memInterpn64 (np : Numpy F32 F64 X) (nx : NumpyX X) (fma : Bool)
    (obs grids : List (MemArray F32 F64 X)) (vals : Strided F64) (method : String)
    (out : MemArray F32 F64 X) (lin assumeRegular checkB : Bool) (atol : F64) :
    Except PyExc (RawCall × Strided F64) := do
  let contents := grids.map MemArray.contents
  let regular ← if assumeRegular then pure true else npCheckRegular nx true contents
  let params ← if regular then pyEach (NpArray.startStep64 np nx) contents else pure []
  let dims := if regular then contents.map NpArray.size else []
  let starts := params.map Prod.fst
  let steps := params.map Prod.snd
  if checkB then
    let flags ←
      if regular then do
        let obs ← pyEach MemArray.extract64 obs
        let obs ← unpackFrom 0 obs
        pyOfRes (checkBoundsRegular dims starts steps obs atol [false])
      else do
        let grids ← pyEach MemArray.extract64 grids
        let obs ← pyEach MemArray.extract64 obs
        let grids ← unpackFrom 0 grids
        let obs ← unpackFrom 0 obs
        pyOfRes (checkBoundsRectilinear grids obs atol [false])
    if flags.any id then .error (.valueError "Observation points violate interpolator bounds")
  let call ← pyDispatch .float64 regular method
  let r ←
    if regular then do
      let obs ← pyEach MemArray.extract64 obs
      let out ← out.extract64
      memRawRegular fma call.method dims starts steps vals lin obs out
    else do
      let grids ← pyEach MemArray.extract64 grids
      let obs ← pyEach MemArray.extract64 obs
      let out ← out.extract64
      memRawRectilinear fma call.method grids vals lin obs out
  return (call, r)

/-- `interpn` from the regularity check on, for `vals` of float32
(`/repo/src/interpn/__init__.py` 100-192); all arrays have been flattened. -/
def memInterpn32 (np : Numpy F32 F64 X) (nx : NumpyX X) (fma : Bool)
    (obs grids : List (MemArray F32 F64 X)) (vals : Strided F32) (method : String)
    (out : MemArray F32 F64 X) (lin assumeRegular checkB : Bool) (atol : F64) :
    Except PyExc (RawCall × Strided F32) := do
  let contents := grids.map MemArray.contents
  let regular ← if assumeRegular then pure true else npCheckRegular nx true contents
  let params ← if regular then pyEach (NpArray.startStep32 np nx) contents else pure []
  let dims := if regular then contents.map NpArray.size else []
  let starts := params.map Prod.fst
  let steps := params.map Prod.snd
  if checkB then
    let flags ←
      if regular then do
        let obs ← pyEach MemArray.extract32 obs
        let obs ← unpackFrom 0 obs
        pyOfRes (checkBoundsRegular dims starts steps obs (np.f32of64 atol) [false])
      else do
        let grids ← pyEach MemArray.extract32 grids
        let obs ← pyEach MemArray.extract32 obs
        let grids ← unpackFrom 0 grids
        let obs ← unpackFrom 0 obs
        pyOfRes (checkBoundsRectilinear grids obs (np.f32of64 atol) [false])
    if flags.any id then .error (.valueError "Observation points violate interpolator bounds")
  let call ← pyDispatch .float32 regular method
  let r ←
    if regular then do
      let obs ← pyEach MemArray.extract32 obs
      let out ← out.extract32
      memRawRegular fma call.method dims starts steps vals lin obs out
    else do
      let grids ← pyEach MemArray.extract32 grids
      let obs ← pyEach MemArray.extract32 obs
      let out ← out.extract32
      memRawRectilinear fma call.method grids vals lin obs out
  return (call, r)

/-- Python `interpn`, `/repo/src/interpn/__init__.py` 48-194. Returns the raw routine that was called
and the returned array, `out.reshape(outshape)`. -/
def memInterpn (np : Numpy F32 F64 X) (nx : NumpyX X) (fma : Bool)
    (obs grids : List (MemArray F32 F64 X)) (vals : MemArray F32 F64 X) (method : String)
    (out : Option (MemArray F32 F64 X)) (lin assumeRegular checkB : Bool) (atol : F64) :
    Except PyExc (RawCall × MemArray F32 F64 X) := do
  let out ← memOutOr np nx out obs
  let outshape := out.shape
  let out := out.ravel
  let obs := obs.map fun x => x.ravel.asContiguous
  let grids := grids.map fun x => x.ravel.asContiguous
  match vals.ravel.asContiguous with
  | .other _ => .error (.assertionError "`interpn` defined only for float32 and float64 data")
  | .f64 v => do
    let (call, r) ← memInterpn64 np nx fma obs grids v method out lin assumeRegular checkB atol
    return (call, .f64 (r.reshape outshape))
  | .f32 v => do
    let (call, r) ← memInterpn32 np nx fma obs grids v method out lin assumeRegular checkB atol
    return (call, .f32 (r.reshape outshape))

/-! ### Classes -/

/-- `out if out is not None else np.zeros_like(obs[0])`, e.g.
`/repo/src/interpn/multilinear_regular.py` 120, 145. -/
def memOut (np : Numpy F32 F64 X) (obs : List (MemArray F32 F64 X))
    (out : Option (MemArray F32 F64 X)) : Except PyExc (MemArray F32 F64 X) :=
  match out with
  | some o => .ok o
  | none =>
    match obs with
    | [] => .error .indexError
    | o :: _ => .ok (o.zerosLike np)

/-- An array held by an object of a class: contiguous, in a buffer of its own
(`np.ascontiguousarray` in `/repo/src/interpn/serialization.py` 31, 33, 62, 64). -/
def ownArray {T : Type} (d : List T) : Strided T := ⟨d, 0, [d.length], [1]⟩

/-- `eval`, e.g. `/repo/src/interpn/multilinear_regular.py` 101-168. The arrays are passed to the raw
routine as they are. -/
def RegularObj.evalMem (np : Numpy F32 F64 X) (fma : Bool) (m : RegularObj F32 F64)
    (obs : List (MemArray F32 F64 X)) (out : Option (MemArray F32 F64 X)) :
    Except PyExc (MemArray F32 F64 X) := do
  let outInner ← memOut np obs out
  match m.vals with
  | .f64 vals =>
    let dims ← pyEach pyUsize m.dims
    let starts ← m.starts.asF64
    let steps ← m.steps.asF64
    let obs ← pyEach MemArray.extract64 obs
    let out ← outInner.extract64
    let r ← memRawRegular fma m.kind.method dims starts steps (ownArray vals) m.kind.lin obs out
    return .f64 r
  | .f32 vals =>
    let dims ← pyEach pyUsize m.dims
    let starts ← m.starts.asF32
    let steps ← m.steps.asF32
    let obs ← pyEach MemArray.extract32 obs
    let out ← outInner.extract32
    let r ← memRawRegular fma m.kind.method dims starts steps (ownArray vals) m.kind.lin obs out
    return .f32 r

/-- `eval`, rectilinear grids, e.g. `/repo/src/interpn/multilinear_rectilinear.py` 97-161. -/
def RectilinearObj.evalMem (np : Numpy F32 F64 X) (fma : Bool) (m : RectilinearObj F32 F64)
    (obs : List (MemArray F32 F64 X)) (out : Option (MemArray F32 F64 X)) :
    Except PyExc (MemArray F32 F64 X) := do
  let outInner ← memOut np obs out
  match m.vals with
  | .f64 vals =>
    let grids ← pyEach Arr.asF64 m.grids
    let obs ← pyEach MemArray.extract64 obs
    let out ← outInner.extract64
    let r ← memRawRectilinear fma m.kind.method (grids.map ownArray) (ownArray vals) m.kind.lin obs out
    return .f64 r
  | .f32 vals =>
    let grids ← pyEach Arr.asF32 m.grids
    let obs ← pyEach MemArray.extract32 obs
    let out ← outInner.extract32
    let r ← memRawRectilinear fma m.kind.method (grids.map ownArray) (ownArray vals) m.kind.lin obs out
    return .f32 r

end Interpn
