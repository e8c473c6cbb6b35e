import Verif.Model.Python

/-! Model of the Python classes `/repo/src/interpn/{multilinear,nearest,multicubic}_{regular,
rectilinear}.py` and of `/repo/src/interpn/serialization.py`.

Modelled: casting in `new`, the validators, `eval`, `eval_unchecked`, `check_bounds`, the
extraction of arguments by PyO3 (`/repo/src/python.rs`), dumping to and loading from JSON.

Simplified: an array is its flattened contents together with its element type, so array shapes
(`PythonShapes.lean`), contiguity (`PythonLayout.lean`; that of the fields is ensured by
`np.ascontiguousarray` in `serialization.py` 31, 33, 62, 64) and aliasing between `obs` and `out`
(`PythonHeap.lean`) are not represented. The buffer is returned on success only. -/

set_option autoImplicit false

namespace Interpn
open FloatOps

/-- A numpy array: float32, float64, or of another element type `X` (integers, say). -/
inductive NpArray (F32 F64 X : Type) where
  | f32 (data : List F32)
  | f64 (data : List F64)
  | other (data : List X)
  deriving DecidableEq

/-- `Array = ArrayF32 | ArrayF64`, `/repo/src/interpn/serialization.py` 18-77. -/
inductive Arr (F32 F64 : Type) where
  | f32 (data : List F32)
  | f64 (data : List F64)
  deriving DecidableEq

/-- Element conversions of numpy (`astype`), and the zero of the other element type. -/
structure Numpy (F32 F64 X : Type) where
  f32of64 : F64 → F32
  f64of32 : F32 → F64
  f32ofX : X → F32
  f64ofX : X → F64
  zeroX : X

variable {F32 F64 X : Type} [FloatOps F32] [FloatOps F64]

namespace Arr

/-- `self.data.dtype`. -/
def dtype : Arr F32 F64 → Dtype
  | f32 _ => .float32
  | f64 _ => .float64

/-- `self.data.size`. -/
def size : Arr F32 F64 → Nat
  | f32 d => d.length
  | f64 d => d.length

/-- `all([x > 0.0 for x in self.data])`. -/
def allPositive : Arr F32 F64 → Bool
  | f32 d => d.all fun x => zero <. x
  | f64 d => d.all fun x => zero <. x

/-- `np.all(np.diff(self.data) > 0.0)`. -/
def allIncreasing : Arr F32 F64 → Bool
  | f32 d => (npDiff d).all fun x => zero <. x
  | f64 d => (npDiff d).all fun x => zero <. x

/-- PyO3 extraction as `PyReadonlyArray1<f32>`. -/
def asF32 : Arr F32 F64 → Except PyExc (List F32)
  | f32 d => .ok d
  | f64 _ => .error .typeError

/-- PyO3 extraction as `PyReadonlyArray1<f64>`. -/
def asF64 : Arr F32 F64 → Except PyExc (List F64)
  | f32 _ => .error .typeError
  | f64 d => .ok d

end Arr

namespace NpArray

/-- `ArrayF32(data=a)`, `/repo/src/interpn/serialization.py` 59-70. -/
def toArrayF32 (np : Numpy F32 F64 X) : NpArray F32 F64 X → Arr F32 F64
  | f32 d => .f32 d
  | f64 d => .f32 (d.map np.f32of64)
  | other d => .f32 (d.map np.f32ofX)

/-- `ArrayF64(data=a)`, `/repo/src/interpn/serialization.py` 28-39. -/
def toArrayF64 (np : Numpy F32 F64 X) : NpArray F32 F64 X → Arr F32 F64
  | f32 d => .f64 (d.map np.f64of32)
  | f64 d => .f64 d
  | other d => .f64 (d.map np.f64ofX)

/-- `arrtype = ArrayF64 if dtype == np.float64 else ArrayF32` for `dtype = vals.dtype`, applied
to `a` (e.g. `/repo/src/interpn/multilinear_regular.py` 62-69). -/
def arrtype (np : Numpy F32 F64 X) (vals a : NpArray F32 F64 X) : Arr F32 F64 :=
  match vals with
  | f64 _ => a.toArrayF64 np
  | _ => a.toArrayF32 np

/-- `np.zeros_like`. -/
def zerosLike (np : Numpy F32 F64 X) : NpArray F32 F64 X → NpArray F32 F64 X
  | f32 d => .f32 (List.replicate d.length zero)
  | f64 d => .f64 (List.replicate d.length zero)
  | other d => .other (List.replicate d.length np.zeroX)

/-- PyO3 extraction as an array of `f32`. -/
def asF32 : NpArray F32 F64 X → Except PyExc (List F32)
  | f32 d => .ok d
  | _ => .error .typeError

/-- PyO3 extraction as an array of `f64`. -/
def asF64 : NpArray F32 F64 X → Except PyExc (List F64)
  | f64 d => .ok d
  | _ => .error .typeError

end NpArray

/-- PyO3 extraction of one argument after another, here of a list of arrays. -/
def pyEach {α β : Type} (f : α → Except PyExc β) : List α → Except PyExc (List β)
  | [] => .ok []
  | a :: rest => do
    let b ← f a
    let bs ← pyEach f rest
    return b :: bs

/-- PyO3 extraction of a Python `int` as `usize`. -/
def pyUsize (z : Int) : Except PyExc Nat :=
  if 0 ≤ z ∧ z ≤ (usizeMax : Int) then .ok z.toNat else .error .overflowError

/-- `assert cond, msg` inside a pydantic validator. -/
def pyAssert (cond : Bool) (msg : String) : Except PyExc Unit :=
  if cond then .ok () else .error (.validationError msg)

/-- `out if out is not None else np.zeros_like(obs[0])`, e.g.
`/repo/src/interpn/multilinear_regular.py` 120, 145. -/
def npOut (np : Numpy F32 F64 X) (obs : List (NpArray F32 F64 X)) (out : Option (NpArray F32 F64 X)) :
    Except PyExc (NpArray F32 F64 X) :=
  match out with
  | some o => .ok o
  | none =>
    match obs with
    | [] => .error .indexError
    | o :: _ => .ok (o.zerosLike np)

/-- The three interpolation methods offered as classes; `multicubic` carries the field
`linearize_extrapolation`. -/
inductive ClassKind where
  | multilinear
  | nearest
  | multicubic (linearizeExtrapolation : Bool)
  deriving DecidableEq

/-- Upper limit on `ndims` in `_validate_model`: `multilinear_regular.py` 78,
`multilinear_rectilinear.py` 72, `nearest_regular.py` 77, `nearest_rectilinear.py` 71,
`multicubic_regular.py` 98, `multicubic_rectilinear.py` 89 in `/repo/src/interpn/`. -/
def ClassKind.maxDims : ClassKind → Nat
  | .multilinear => 8
  | .nearest => 6
  | .multicubic _ => 8

/-- Message of the check on `ndims` (same places). -/
def ClassKind.ndimsMsg : ClassKind → String
  | .nearest => "Number of dimensions must be at least 1 and no more than 6"
  | _ => "Number of dimensions must be at least 1 and no more than 8"

/-- The raw routine called in `eval_unchecked`: `multilinear_regular.py` 147-164,
`nearest_regular.py` 148-165, `multicubic_regular.py` 167-186 and the rectilinear
counterparts. -/
def ClassKind.method : ClassKind → String
  | .multilinear => "linear"
  | .nearest => "nearest"
  | .multicubic _ => "cubic"

/-- The argument `linearize_extrapolation` of the raw routine (ignored by the other methods). -/
def ClassKind.lin : ClassKind → Bool
  | .multicubic b => b
  | _ => false

/-! ### Regular grids -/

/-- Fields of `MultilinearRegular`, `NearestRegular`, `MulticubicRegular` (the class is
`kind`), e.g. `/repo/src/interpn/multilinear_regular.py` 35-38. -/
structure RegularObj (F32 F64 : Type) where
  kind : ClassKind
  dims : List Int
  starts : Arr F32 F64
  steps : Arr F32 F64
  vals : Arr F32 F64
  deriving DecidableEq

namespace RegularObj

/-- Arrays whose element type is compared with that of `vals`: `[self.steps, self.vals]` in
`multilinear_regular.py` 89-91 and `multicubic_regular.py` 109-111 (`starts` is missing),
`[self.starts, self.steps, self.vals]` in `nearest_regular.py` 88-93. -/
def dtypeChecked (m : RegularObj F32 F64) : List (Arr F32 F64) :=
  match m.kind with
  | .nearest => [m.starts, m.steps, m.vals]
  | _ => [m.steps, m.vals]

/-- `_validate_model`, `multilinear_regular.py` 73-96, `nearest_regular.py` 72-98,
`multicubic_regular.py` 93-116. -/
def validate (m : RegularObj F32 F64) : Except PyExc Unit := do
  let ndims := m.dims.length
  pyAssert (ndims ≤ m.kind.maxDims && 1 ≤ ndims) m.kind.ndimsMsg
  pyAssert (m.starts.size == ndims) "Grid dimension mismatch"
  pyAssert (m.steps.size == ndims) "Grid dimension mismatch"
  pyAssert ((m.vals.size : Int) == m.dims.foldl (· * ·) 1)
    "Size of value array does not match grid dims"
  pyAssert m.steps.allPositive "All grid steps must be positive and nonzero"
  pyAssert (m.dtypeChecked.all fun x => x.dtype == m.vals.dtype)
    "All grid inputs must be of the same data type (np.float32 or np.float64)"

/-- The class called with its fields: fields, then validator. -/
def construct (kind : ClassKind) (dims : List Int) (starts steps vals : Arr F32 F64) :
    Except PyExc (RegularObj F32 F64) := do
  let m : RegularObj F32 F64 := { kind, dims, starts, steps, vals }
  m.validate
  return m

/-- `new`, `multilinear_regular.py` 40-71, `nearest_regular.py` 39-70, `multicubic_regular.py`
52-91. -/
def new (np : Numpy F32 F64 X) (kind : ClassKind) (dims : List Int)
    (starts steps vals : NpArray F32 F64 X) : Except PyExc (RegularObj F32 F64) :=
  construct kind dims (NpArray.arrtype np vals starts) (NpArray.arrtype np vals steps)
    (NpArray.arrtype np vals vals)

/-- `eval_unchecked`, `multilinear_regular.py` 125-168, `nearest_regular.py` 126-169,
`multicubic_regular.py` 145-190. -/
def evalUnchecked (np : Numpy F32 F64 X) (fma : Bool) (m : RegularObj F32 F64)
    (obs : List (NpArray F32 F64 X)) (out : Option (NpArray F32 F64 X)) :
    Except PyExc (NpArray F32 F64 X) := do
  let outInner ← npOut np obs out
  match m.vals with
  | .f64 vals =>
    let dims ← pyEach pyUsize m.dims
    let starts ← m.starts.asF64
    let steps ← m.steps.asF64
    let obs ← pyEach NpArray.asF64 obs
    let out ← outInner.asF64
    let r ← rawRegular fma m.kind.method dims starts steps vals m.kind.lin obs out
    return .f64 r
  | .f32 vals =>
    let dims ← pyEach pyUsize m.dims
    let starts ← m.starts.asF32
    let steps ← m.steps.asF32
    let obs ← pyEach NpArray.asF32 obs
    let out ← outInner.asF32
    let r ← rawRegular fma m.kind.method dims starts steps vals m.kind.lin obs out
    return .f32 r

/-- `eval`, `multilinear_regular.py` 101-123, `nearest_regular.py` 103-124,
`multicubic_regular.py` 121-143. -/
def eval (np : Numpy F32 F64 X) (fma : Bool) (m : RegularObj F32 F64)
    (obs : List (NpArray F32 F64 X)) (out : Option (NpArray F32 F64 X)) :
    Except PyExc (NpArray F32 F64 X) := do
  let outInner ← npOut np obs out
  evalUnchecked np fma m obs (some outInner)

/-- `check_bounds`, `multilinear_regular.py` 170-212, `nearest_regular.py` 171-213,
`multicubic_regular.py` 192-234. The Python float `atol` is a float64, converted to float32 by
PyO3 for the float32 routine. -/
def checkBounds (np : Numpy F32 F64 X) (m : RegularObj F32 F64)
    (obs : List (NpArray F32 F64 X)) (atol : F64) : Except PyExc (List Bool) := do
  let out := List.replicate m.dims.length false
  match m.vals with
  | .f64 _ =>
    let dims ← pyEach pyUsize m.dims
    let starts ← m.starts.asF64
    let steps ← m.steps.asF64
    let obs ← pyEach NpArray.asF64 obs
    if !unpackOk obs then .error .panicException
    else pyOfRes (checkBoundsRegular dims starts steps obs atol out)
  | .f32 _ =>
    let dims ← pyEach pyUsize m.dims
    let starts ← m.starts.asF32
    let steps ← m.steps.asF32
    let obs ← pyEach NpArray.asF32 obs
    if !unpackOk obs then .error .panicException
    else pyOfRes (checkBoundsRegular dims starts steps obs (np.f32of64 atol) out)

end RegularObj

/-! ### Rectilinear grids -/

/-- Fields of `MultilinearRectilinear`, `NearestRectilinear`, `MulticubicRectilinear`, e.g.
`/repo/src/interpn/multilinear_rectilinear.py` 35-36. -/
structure RectilinearObj (F32 F64 : Type) where
  kind : ClassKind
  grids : List (Arr F32 F64)
  vals : Arr F32 F64
  deriving DecidableEq

namespace RectilinearObj

/-- `dims()`, e.g. `/repo/src/interpn/multilinear_rectilinear.py` 94-95. -/
def dims (m : RectilinearObj F32 F64) : List Nat := m.grids.map Arr.size

/-- `_validate_model`, `multilinear_rectilinear.py` 66-89, `nearest_rectilinear.py` 65-88,
`multicubic_rectilinear.py` 83-106. -/
def validate (m : RectilinearObj F32 F64) : Except PyExc Unit := do
  let ndims := m.grids.length
  pyAssert (ndims ≤ m.kind.maxDims && 1 ≤ ndims) m.kind.ndimsMsg
  pyAssert (m.vals.size == m.dims.foldl (· * ·) 1) "Size of value array does not match grid dims"
  pyAssert (m.grids.all Arr.allIncreasing) "All grids must be monotonically increasing"
  pyAssert (m.grids.all fun x => x.dtype == m.vals.dtype)
    "All grid inputs must be of the same data type (np.float32 or np.float64)"

/-- The class called with its fields: fields, then validator. -/
def construct (kind : ClassKind) (grids : List (Arr F32 F64)) (vals : Arr F32 F64) :
    Except PyExc (RectilinearObj F32 F64) := do
  let m : RectilinearObj F32 F64 := { kind, grids, vals }
  m.validate
  return m

/-- `new`, `multilinear_rectilinear.py` 38-64, `nearest_rectilinear.py` 37-63,
`multicubic_rectilinear.py` 50-81. -/
def new (np : Numpy F32 F64 X) (kind : ClassKind) (grids : List (NpArray F32 F64 X))
    (vals : NpArray F32 F64 X) : Except PyExc (RectilinearObj F32 F64) :=
  construct kind (grids.map (NpArray.arrtype np vals)) (NpArray.arrtype np vals vals)

/-- `eval_unchecked`, `multilinear_rectilinear.py` 122-161, `nearest_rectilinear.py` 119-158,
`multicubic_rectilinear.py` 139-180. -/
def evalUnchecked (np : Numpy F32 F64 X) (fma : Bool) (m : RectilinearObj F32 F64)
    (obs : List (NpArray F32 F64 X)) (out : Option (NpArray F32 F64 X)) :
    Except PyExc (NpArray F32 F64 X) := do
  let outInner ← npOut np obs out
  match m.vals with
  | .f64 vals =>
    let grids ← pyEach Arr.asF64 m.grids
    let obs ← pyEach NpArray.asF64 obs
    let out ← outInner.asF64
    let r ← rawRectilinear fma m.kind.method grids vals m.kind.lin obs out
    return .f64 r
  | .f32 vals =>
    let grids ← pyEach Arr.asF32 m.grids
    let obs ← pyEach NpArray.asF32 obs
    let out ← outInner.asF32
    let r ← rawRectilinear fma m.kind.method grids vals m.kind.lin obs out
    return .f32 r

/-- `eval`, `multilinear_rectilinear.py` 97-120, `nearest_rectilinear.py` 96-117,
`multicubic_rectilinear.py` 114-137. -/
def eval (np : Numpy F32 F64 X) (fma : Bool) (m : RectilinearObj F32 F64)
    (obs : List (NpArray F32 F64 X)) (out : Option (NpArray F32 F64 X)) :
    Except PyExc (NpArray F32 F64 X) := do
  let outInner ← npOut np obs out
  evalUnchecked np fma m obs (some outInner)

/-- `check_bounds`, `multilinear_rectilinear.py` 163-201, `nearest_rectilinear.py` 160-198,
`multicubic_rectilinear.py` 182-220. -/
def checkBounds (np : Numpy F32 F64 X) (m : RectilinearObj F32 F64)
    (obs : List (NpArray F32 F64 X)) (atol : F64) : Except PyExc (List Bool) := do
  let out := List.replicate m.grids.length false
  match m.vals with
  | .f64 _ =>
    let grids ← pyEach Arr.asF64 m.grids
    let obs ← pyEach NpArray.asF64 obs
    if !(unpackOk grids && unpackOk obs) then .error .panicException
    else pyOfRes (checkBoundsRectilinear grids obs atol out)
  | .f32 _ =>
    let grids ← pyEach Arr.asF32 m.grids
    let obs ← pyEach NpArray.asF32 obs
    if !(unpackOk grids && unpackOk obs) then .error .panicException
    else pyOfRes (checkBoundsRectilinear grids obs (np.f32of64 atol) out)

end RectilinearObj

/-! ### Serialization -/

/-- `json.dumps(data.tolist())` and `json.loads` for lists of Python floats (float64).
`loads` returns `none` where it raises. -/
structure Json (F64 : Type) where
  dumps : List F64 → String
  loads : String → Option (List F64)

/-- A dumped array: `{"data": "...", "dtype": "..."}`. -/
structure ArrJson where
  data : String
  dtype : String
  deriving DecidableEq

/-- `_serialize_x` and the `dtype` field, `/repo/src/interpn/serialization.py` 24, 41-43, 55,
72-74; `tolist` of a float32 array converts to Python floats. -/
def Arr.dump (np : Numpy F32 F64 X) (js : Json F64) : Arr F32 F64 → ArrJson
  | .f32 d => ⟨js.dumps (d.map np.f64of32), "float32"⟩
  | .f64 d => ⟨js.dumps d, "float64"⟩

/-- Loading: the discriminator picks the class (`serialization.py` 77), `_validate_x` with a
string argument reads the data (30-31, 61-62). -/
def ArrJson.load (np : Numpy F32 F64 X) (js : Json F64) (a : ArrJson) :
    Except PyExc (Arr F32 F64) :=
  match a.dtype, js.loads a.data with
  | "float32", some d => .ok (.f32 (d.map np.f32of64))
  | "float64", some d => .ok (.f64 d)
  | _, _ => .error (.validationError "")

/-- Dump of an interpolator on a regular grid (pydantic `model_dump_json`, field by field). -/
structure RegularJson where
  kind : ClassKind
  dims : List Int
  starts : ArrJson
  steps : ArrJson
  vals : ArrJson

/-- Dump of an interpolator on a rectilinear grid. -/
structure RectilinearJson where
  kind : ClassKind
  grids : List ArrJson
  vals : ArrJson

/-- `model_dump_json`. -/
def RegularObj.dump (np : Numpy F32 F64 X) (js : Json F64) (m : RegularObj F32 F64) : RegularJson :=
  { kind := m.kind, dims := m.dims, starts := m.starts.dump np js, steps := m.steps.dump np js,
    vals := m.vals.dump np js }

/-- `model_validate_json`: fields, then validator. -/
def RegularJson.load (np : Numpy F32 F64 X) (js : Json F64) (j : RegularJson) :
    Except PyExc (RegularObj F32 F64) := do
  let starts ← j.starts.load np js
  let steps ← j.steps.load np js
  let vals ← j.vals.load np js
  RegularObj.construct j.kind j.dims starts steps vals

/-- `model_dump_json`. -/
def RectilinearObj.dump (np : Numpy F32 F64 X) (js : Json F64) (m : RectilinearObj F32 F64) :
    RectilinearJson :=
  { kind := m.kind, grids := m.grids.map (Arr.dump np js), vals := m.vals.dump np js }

/-- `model_validate_json`. -/
def RectilinearJson.load (np : Numpy F32 F64 X) (js : Json F64) (j : RectilinearJson) :
    Except PyExc (RectilinearObj F32 F64) := do
  let grids ← pyEach (ArrJson.load np js) j.grids
  let vals ← j.vals.load np js
  RectilinearObj.construct j.kind grids vals

end Interpn
