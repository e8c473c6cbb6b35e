import Verif.Model.Multilinear
import Verif.Model.Nearest
import Verif.Model.Multicubic

/-! Model of the Python entry point `/repo/src/interpn/__init__.py` and of the argument
unpacking of `/repo/src/python.rs`. Arrays are modelled by their flattened contents
(`ravel`, `ascontiguousarray`, `reshape` only move data); shapes are in `PythonShapes.lean`. -/

set_option autoImplicit false

namespace Interpn
open FloatOps

variable {T : Type} [FloatOps T]

/-- Python exceptions that can be raised. `panicException` is PyO3's translation of a Rust
panic. -/
inductive PyExc where
  | valueError (msg : String)
  | assertionError (msg : String)
  | indexError
  | panicException
  /-- raised by PyO3 for an argument of the wrong type -/
  | typeError
  /-- raised by PyO3 for an `int` that is not a `usize` -/
  | overflowError
  /-- pydantic's wrapper of an assertion that failed in a validator -/
  | validationError (msg : String)
  deriving DecidableEq, Repr

/-- Element type of `vals`. -/
inductive Dtype where
  | float32 | float64 | other
  deriving DecidableEq, Repr

/-- The raw routine called: interpolation method, grid kind and element type. -/
structure RawCall where
  method : String
  regular : Bool
  dtype : Dtype
  deriving DecidableEq, Repr

/-- IEEE equality, `a == b`, through the comparisons of `FloatOps`. -/
def feq (a b : T) : Bool := (a <=. b) && (b <=. a)

/-- `np.diff(grid)`. -/
def npDiff : List T → List T
  | a :: b :: rest => (b -. a) :: npDiff (b :: rest)
  | _ => []

/-- Loop of `_check_regular`, `/repo/src/interpn/__init__.py` 197-203; `acc` is
`is_regular`. `is_regular and ...` short-circuits, so `dgrid[0]` is only evaluated (and can
only raise `IndexError`) while `is_regular` is true. -/
def checkRegularPy : Bool → List (List T) → Except PyExc Bool
  | acc, [] => .ok acc
  | false, _ :: rest => checkRegularPy false rest
  | true, g :: rest =>
    match npDiff g with
    | [] => .error .indexError
    | d0 :: ds => checkRegularPy ((d0 :: ds).all fun d => feq d d0) rest

/-- Turn the result of a Rust routine into a Python result
(`/repo/src/python.rs` 68-80 and copies: `Err(msg)` becomes `AssertionError`, a panic
becomes `PanicException`). -/
def pyOfRes {α : Type} (r : Res Unit × α) : Except PyExc α :=
  match r.1 with
  | .ok _ => .ok r.2
  | .err m => .error (.assertionError m)
  | .panic => .error .panicException

/-- `unpack_vec_of_arr!`, `/repo/src/python.rs` 41-53: more than 8 arrays index out of
bounds. -/
def unpackOk {α : Type} (xs : List α) : Bool := xs.length ≤ 8

/-- The three raw routines for regular grids (`/repo/src/python.rs` 55-84, 146-174,
221-253). -/
def rawRegular (fma : Bool) (method : String) (dims : List Nat) (starts steps vals : List T)
    (lin : Bool) (obs : List (List T)) (out : List T) : Except PyExc (List T) :=
  if !unpackOk obs then .error .panicException
  else if method = "linear" then
    pyOfRes (multilinearRegularInterpn fma dims starts steps vals obs out)
  else if method = "nearest" then
    pyOfRes (nearestRegularInterpn fma dims starts steps vals obs out)
  else pyOfRes (multicubicRegularInterpn fma dims starts steps vals lin obs out)

/-- The three raw routines for rectilinear grids (`/repo/src/python.rs` 118-143, 176-195,
255-285). -/
def rawRectilinear (fma : Bool) (method : String) (grids : List (List T)) (vals : List T)
    (lin : Bool) (obs : List (List T)) (out : List T) : Except PyExc (List T) :=
  if !(unpackOk grids && unpackOk obs) then .error .panicException
  else if method = "linear" then
    pyOfRes (multilinearRectilinearInterpn fma grids vals obs out)
  else if method = "nearest" then
    pyOfRes (nearestRectilinearInterpn grids vals obs out)
  else pyOfRes (multicubicRectilinearInterpn fma grids vals lin obs out)

/-- The `match (dtype, is_regular, method)` table, `/repo/src/interpn/__init__.py` 134-192. -/
def pyDispatch (dtype : Dtype) (regular : Bool) (method : String) : Except PyExc RawCall :=
  match dtype, regular, method with
  | .float32, true, "linear" => .ok ⟨"linear", true, .float32⟩
  | .float64, true, "linear" => .ok ⟨"linear", true, .float64⟩
  | .float32, false, "linear" => .ok ⟨"linear", false, .float32⟩
  | .float64, false, "linear" => .ok ⟨"linear", false, .float64⟩
  | .float32, true, "nearest" => .ok ⟨"nearest", true, .float32⟩
  | .float64, true, "nearest" => .ok ⟨"nearest", true, .float64⟩
  | .float32, false, "nearest" => .ok ⟨"nearest", false, .float32⟩
  | .float64, false, "nearest" => .ok ⟨"nearest", false, .float64⟩
  | .float32, true, "cubic" => .ok ⟨"cubic", true, .float32⟩
  | .float64, true, "cubic" => .ok ⟨"cubic", true, .float64⟩
  | .float32, false, "cubic" => .ok ⟨"cubic", false, .float32⟩
  | .float64, false, "cubic" => .ok ⟨"cubic", false, .float64⟩
  | _, _, _ => .error (.valueError "Unsupported interpolation configuration")

/-- `out or np.zeros_like(obs[0])`, `/repo/src/interpn/__init__.py` 83. Truth value of a
numpy array: an error for two or more elements, `x != 0` for one element, false for none
(a deprecation in recent numpy). -/
def pyOut (out : Option (List T)) (obs : List (List T)) : Except PyExc (List T) :=
  let fresh : Except PyExc (List T) :=
    match obs with
    | [] => .error .indexError
    | o :: _ => .ok (List.replicate o.length zero)
  match out with
  | none => fresh
  | some [] => fresh
  | some [v] => if feq v zero then fresh else .ok [v]
  | some _ => .error (.valueError "The truth value of an array is ambiguous")

/-- `starts`, `steps` from the first two entries of each grid
(`/repo/src/interpn/__init__.py` 103-105). -/
def pyRegularParams : List (List T) → Except PyExc (List Nat × List T × List T)
  | [] => .ok ([], [], [])
  | (a :: b :: r) :: rest => do
    let (d, s, p) ← pyRegularParams rest
    return ((a :: b :: r).length :: d, a :: s, (b -. a) :: p)
  | _ :: _ => .error .indexError

/-- The bounds check of `interpn`, `/repo/src/interpn/__init__.py` 113-131.
`outb = np.zeros_like(out.shape, dtype=bool)` has the length of the *shape tuple* of the
flattened `out`, i.e. 1. -/
def pyCheckBounds (regular : Bool) (dims : List Nat) (starts steps : List T)
    (grids obs : List (List T)) (atol : T) : Except PyExc Unit := do
  let outb : List Bool := [false]
  let flags ←
    if regular then
      if !unpackOk obs then .error .panicException
      else pyOfRes (checkBoundsRegular dims starts steps obs atol outb)
    else
      if !(unpackOk grids && unpackOk obs) then .error .panicException
      else pyOfRes (checkBoundsRectilinear grids obs atol outb)
  if flags.any id then .error (.valueError "Observation points violate interpolator bounds")
  else return ()

/-- Python `interpn`, `/repo/src/interpn/__init__.py` 48-194. Returns the raw routine that
was called and the returned array. Flat arrays, all of the dtype of `vals`; see `npInterpn` in
`PythonShapes.lean` for shapes and other dtypes. -/
def pyInterpn (fma : Bool) (dtype : Dtype) (obs grids : List (List T)) (vals : List T)
    (method : String) (out : Option (List T)) (lin assumeRegular checkB : Bool) (atol : T) :
    Except PyExc (RawCall × List T) := do
  let out ← pyOut out obs
  if dtype = .other then
    .error (.assertionError "`interpn` defined only for float32 and float64 data")
  let regular ← if assumeRegular then pure true else checkRegularPy true grids
  let (dims, starts, steps) ← if regular then pyRegularParams grids else pure ([], [], [])
  if checkB then pyCheckBounds regular dims starts steps grids obs atol
  let call ← pyDispatch dtype regular method
  let out ← if regular then rawRegular fma call.method dims starts steps vals lin obs out
    else rawRectilinear fma call.method grids vals lin obs out
  return (call, out)

end Interpn
