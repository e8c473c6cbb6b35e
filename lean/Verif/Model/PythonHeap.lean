import Verif.Model.PythonLayout

/-! Model of the Python code with the memory that numpy arrays share. `Model/PythonLayout.lean` gives
each array a buffer of its own and returns the output buffer; here arrays are views of numbered buffers
in one memory, a call turns one memory into another, whether it returns or raises, and two arrays may
lie in the same buffer.

Modelled: which of `flatten`, `astype`, `ascontiguousarray`, `ravel`, `reshape`, `zeros_like` copy and
which give a view, the construction and evaluation of the classes, the function `interpn`, and the
borrow check of rust-numpy for the arguments of the raw routines (`/repo/src/python.rs` 59-66 and
copies).

Simplified: a buffer has one element type (no views of one buffer with two element types); buffers are
never freed; the flag arrays of the bounds checks, `outb` in `/repo/src/interpn/__init__.py` 116 and
`out` in e.g. `/repo/src/interpn/multilinear_regular.py` 188, are made and dropped inside the call and
are not stored; a call runs without other threads in between (it holds the interpreter lock). -/

set_option autoImplicit false

namespace Interpn
open FloatOps

/-- A numpy array object: a view of a buffer, and the flag `WRITEABLE`. Strides count elements. -/
structure Ref where
  buf : Nat
  offset : Nat
  shape : List Nat
  strides : List Int
  writeable : Bool
  deriving DecidableEq

/-- Positions in the buffer of the elements, in C order. -/
def Ref.positions (r : Ref) : List Int := Strided.positionsFrom r.offset r.shape r.strides

/-- `r.reshape(shape)` of an array in C order: another view of the same buffer. -/
def Ref.reshape (r : Ref) (shape : List Nat) : Ref :=
  { r with shape := shape, strides := Strided.cStrides shape }

/-- The memory of numpy arrays: buffer number `b` is entry `b`. -/
abbrev Heap (F32 F64 X : Type) := List (NpArray F32 F64 X)

/-- The borrow check of rust-numpy (`PyReadonlyArray1`, `PyReadwriteArray1`): whether an array can be
borrowed for writing while others are borrowed for reading, and the exception raised if not. What is
assumed about it is in `Spec/PythonHeap.lean`. -/
structure Borrow where
  allowed : List Ref → Ref → Bool
  exc : PyExc

section
variable {F32 F64 X : Type}

/-- The array as it lies in memory (a missing buffer reads as empty). -/
def Heap.load (h : Heap F32 F64 X) (r : Ref) : MemArray F32 F64 X :=
  match h[r.buf]? with
  | some (.f32 d) => .f32 ⟨d, r.offset, r.shape, r.strides⟩
  | some (.f64 d) => .f64 ⟨d, r.offset, r.shape, r.strides⟩
  | some (.other d) => .other ⟨d, r.offset, r.shape, r.strides⟩
  | none => .other ⟨[], r.offset, r.shape, r.strides⟩

/-- Python code that reads and writes the memory; what has been written stays when it raises. -/
def PyM (F32 F64 X α : Type) : Type := Heap F32 F64 X → Except PyExc α × Heap F32 F64 X

instance : Monad (PyM F32 F64 X) where
  pure a := fun h => (.ok a, h)
  bind x f := fun h =>
    match x h with
    | (.ok a, h') => f a h'
    | (.error e, h') => (.error e, h')

namespace PyM

/-- Code that does not look at the memory. -/
def ofExcept {α : Type} (r : Except PyExc α) : PyM F32 F64 X α := fun h => (r, h)

/-- The array as it lies in memory now. -/
def read (r : Ref) : PyM F32 F64 X (MemArray F32 F64 X) := fun h => (.ok (h.load r), h)

/-- A new array in C order, in a new buffer. -/
def alloc (data : NpArray F32 F64 X) (shape : List Nat) : PyM F32 F64 X Ref := fun h =>
  (.ok ⟨h.length, 0, shape, Strided.cStrides shape, true⟩, h ++ [data])

/-- Replace the contents of a buffer. -/
def store (b : Nat) (data : NpArray F32 F64 X) : PyM F32 F64 X Unit := fun h =>
  (.ok (), h.set b data)

/-- One array after the other. -/
def each {α β : Type} (f : α → PyM F32 F64 X β) : List α → PyM F32 F64 X (List β)
  | [] => pure []
  | a :: rest => do
    let b ← f a
    let bs ← each f rest
    return b :: bs

end PyM

/-- numpy's flag `C_CONTIGUOUS`. -/
def MemArray.cContiguous : MemArray F32 F64 X → Bool
  | .f32 a => a.cContiguous
  | .f64 a => a.cContiguous
  | .other a => a.cContiguous

/-- `a.flatten()`: always a copy. -/
def heapFlatten (r : Ref) : PyM F32 F64 X Ref := do
  let a ← PyM.read r
  PyM.alloc a.contents [a.shape.prod]

/-- `np.ascontiguousarray(a)`: a copy only if `a` is not contiguous. -/
def heapAsContiguous (r : Ref) : PyM F32 F64 X Ref := do
  let a ← PyM.read r
  if a.cContiguous then return r else PyM.alloc a.contents a.shape

/-- `a.ravel()`: a view if `a` is contiguous, otherwise a copy. -/
def heapRavel (r : Ref) : PyM F32 F64 X Ref := do
  let a ← PyM.read r
  if a.cContiguous then return r.reshape [a.shape.prod] else PyM.alloc a.contents [a.shape.prod]

/-- An array of float32 or float64 as an array of any element type. -/
def Arr.toNp : Arr F32 F64 → NpArray F32 F64 X
  | .f32 d => .f32 d
  | .f64 d => .f64 d

/-- `ArrayF64(data=a)` or `ArrayF32(data=a)`, `/repo/src/interpn/serialization.py` 33, 64:
`np.ascontiguousarray(data.astype(...))`; `astype` copies even if the element type is the same. -/
def heapArray (np : Numpy F32 F64 X) (is64 : Bool) (r : Ref) : PyM F32 F64 X Ref := do
  let a ← PyM.read r
  let y ← PyM.alloc (if is64 then a.contents.toArrayF64 np else a.contents.toArrayF32 np).toNp a.shape
  heapAsContiguous y

/-- The contents of an array of float32 or float64; the fields of the classes are of no other element
type. -/
def Heap.arr (h : Heap F32 F64 X) (r : Ref) : Arr F32 F64 :=
  match (h.load r).contents with
  | .f32 d => .f32 d
  | .f64 d => .f64 d
  | .other _ => .f64 []

end

/-! ### Raw routines -/

section
variable {T : Type} [FloatOps T]

/-- The Rust function called for a regular grid (`/repo/src/python.rs` 68-75, 162-169, 243-251) and the
buffer it leaves, whatever the outcome. -/
def rustRegular (fma : Bool) (method : String) (dims : List Nat) (starts steps vals : List T)
    (lin : Bool) (obs : List (List T)) (out : List T) : Res Unit × List T :=
  if method = "linear" then multilinearRegularInterpn fma dims starts steps vals obs out
  else if method = "nearest" then nearestRegularInterpn fma dims starts steps vals obs out
  else multicubicRegularInterpn fma dims starts steps vals lin obs out

/-- The Rust function called for a rectilinear grid (`/repo/src/python.rs` 132-137, 192, 277-283)
and the buffer it leaves, whatever the outcome. -/
def rustRectilinear (fma : Bool) (method : String) (grids : List (List T)) (vals : List T)
    (lin : Bool) (obs : List (List T)) (out : List T) : Res Unit × List T :=
  if method = "linear" then multilinearRectilinearInterpn fma grids vals obs out
  else if method = "nearest" then nearestRectilinearInterpn grids vals obs out
  else multicubicRectilinearInterpn fma grids vals lin obs out

end

variable {F32 F64 X : Type} [FloatOps F32] [FloatOps F64]

/-- Raw routine for regular grids of float64 (`/repo/src/python.rs` 55-84, 146-174, 221-253): PyO3
extracts the arguments from left to right and borrows them, `out` last and for writing; then the slices
are taken, and the Rust function runs on the memory of `out`. -/
def heapRawRegular64 (B : Borrow) (fma : Bool) (method : String) (dims : List Nat)
    (starts steps vals : Ref) (lin : Bool) (obs : List Ref) (out : Ref) : PyM F32 F64 X Unit := do
  let s ← (do PyM.ofExcept (← PyM.read starts).extract64)
  let p ← (do PyM.ofExcept (← PyM.read steps).extract64)
  let v ← (do PyM.ofExcept (← PyM.read vals).extract64)
  let xs ← PyM.each PyM.read obs
  let xs ← PyM.ofExcept (pyEach MemArray.extract64 xs)
  let o ← (do PyM.ofExcept (← PyM.read out).extract64)
  if !B.allowed (starts :: steps :: vals :: obs) out then PyM.ofExcept (.error B.exc)
  let x ← PyM.ofExcept (unpackFrom 0 xs)
  let s ← PyM.ofExcept s.asSlice
  let p ← PyM.ofExcept p.asSlice
  let v ← PyM.ofExcept v.asSlice
  let r ← PyM.ofExcept o.asSlice
  let (res, r) := rustRegular fma method dims s p v lin x r
  PyM.store out.buf (.f64 (o.write r).buffer)
  PyM.ofExcept (pyOfRes (res, ()))

/-- The same for float32. -/
def heapRawRegular32 (B : Borrow) (fma : Bool) (method : String) (dims : List Nat)
    (starts steps vals : Ref) (lin : Bool) (obs : List Ref) (out : Ref) : PyM F32 F64 X Unit := do
  let s ← (do PyM.ofExcept (← PyM.read starts).extract32)
  let p ← (do PyM.ofExcept (← PyM.read steps).extract32)
  let v ← (do PyM.ofExcept (← PyM.read vals).extract32)
  let xs ← PyM.each PyM.read obs
  let xs ← PyM.ofExcept (pyEach MemArray.extract32 xs)
  let o ← (do PyM.ofExcept (← PyM.read out).extract32)
  if !B.allowed (starts :: steps :: vals :: obs) out then PyM.ofExcept (.error B.exc)
  let x ← PyM.ofExcept (unpackFrom 0 xs)
  let s ← PyM.ofExcept s.asSlice
  let p ← PyM.ofExcept p.asSlice
  let v ← PyM.ofExcept v.asSlice
  let r ← PyM.ofExcept o.asSlice
  let (res, r) := rustRegular fma method dims s p v lin x r
  PyM.store out.buf (.f32 (o.write r).buffer)
  PyM.ofExcept (pyOfRes (res, ()))

/-- Raw routine for rectilinear grids of float64 (`/repo/src/python.rs` 118-143, 176-195, 255-285). -/
def heapRawRectilinear64 (B : Borrow) (fma : Bool) (method : String) (grids : List Ref) (vals : Ref)
    (lin : Bool) (obs : List Ref) (out : Ref) : PyM F32 F64 X Unit := do
  let gs ← PyM.each PyM.read grids
  let gs ← PyM.ofExcept (pyEach MemArray.extract64 gs)
  let v ← (do PyM.ofExcept (← PyM.read vals).extract64)
  let xs ← PyM.each PyM.read obs
  let xs ← PyM.ofExcept (pyEach MemArray.extract64 xs)
  let o ← (do PyM.ofExcept (← PyM.read out).extract64)
  if !B.allowed (grids ++ vals :: obs) out then PyM.ofExcept (.error B.exc)
  let g ← PyM.ofExcept (unpackFrom 0 gs)
  let x ← PyM.ofExcept (unpackFrom 0 xs)
  let v ← PyM.ofExcept v.asSlice
  let r ← PyM.ofExcept o.asSlice
  let (res, r) := rustRectilinear fma method g v lin x r
  PyM.store out.buf (.f64 (o.write r).buffer)
  PyM.ofExcept (pyOfRes (res, ()))

/-- The same for float32. -/
def heapRawRectilinear32 (B : Borrow) (fma : Bool) (method : String) (grids : List Ref) (vals : Ref)
    (lin : Bool) (obs : List Ref) (out : Ref) : PyM F32 F64 X Unit := do
  let gs ← PyM.each PyM.read grids
  let gs ← PyM.ofExcept (pyEach MemArray.extract32 gs)
  let v ← (do PyM.ofExcept (← PyM.read vals).extract32)
  let xs ← PyM.each PyM.read obs
  let xs ← PyM.ofExcept (pyEach MemArray.extract32 xs)
  let o ← (do PyM.ofExcept (← PyM.read out).extract32)
  if !B.allowed (grids ++ vals :: obs) out then PyM.ofExcept (.error B.exc)
  let g ← PyM.ofExcept (unpackFrom 0 gs)
  let x ← PyM.ofExcept (unpackFrom 0 xs)
  let v ← PyM.ofExcept v.asSlice
  let r ← PyM.ofExcept o.asSlice
  let (res, r) := rustRectilinear fma method g v lin x r
  PyM.store out.buf (.f32 (o.write r).buffer)
  PyM.ofExcept (pyOfRes (res, ()))

/-- `np.zeros_like(a)` (in C order, see `MemArray.zerosLike`). -/
def heapZerosLike (np : Numpy F32 F64 X) (r : Ref) : PyM F32 F64 X Ref := do
  let a ← PyM.read r
  match a with
  | .f32 _ => PyM.alloc (.f32 (List.replicate a.shape.prod zero)) a.shape
  | .f64 _ => PyM.alloc (.f64 (List.replicate a.shape.prod zero)) a.shape
  | .other _ => PyM.alloc (.other (List.replicate a.shape.prod np.zeroX)) a.shape

/-- `np.zeros_like(obs[0])`. -/
def heapZerosFirst (np : Numpy F32 F64 X) : List Ref → PyM F32 F64 X Ref
  | [] => PyM.ofExcept (.error .indexError)
  | o :: _ => heapZerosLike np o

/-- `out if out is not None else np.zeros_like(obs[0])`, e.g.
`/repo/src/interpn/multilinear_regular.py` 120, 145. -/
def heapOut (np : Numpy F32 F64 X) (obs : List Ref) (out : Option Ref) : PyM F32 F64 X Ref :=
  match out with
  | some o => pure o
  | none => heapZerosFirst np obs

/-! ### Classes -/

/-- An object of a class on a regular grid: its arrays are views of memory. -/
structure RegularRef where
  kind : ClassKind
  dims : List Int
  starts : Ref
  steps : Ref
  vals : Ref
  deriving DecidableEq

/-- An object of a class on a rectilinear grid. -/
structure RectilinearRef where
  kind : ClassKind
  grids : List Ref
  vals : Ref
  deriving DecidableEq

namespace RegularRef

/-- The object with the present contents of its arrays. -/
def load (m : RegularRef) (h : Heap F32 F64 X) : RegularObj F32 F64 :=
  { kind := m.kind, dims := m.dims, starts := h.arr m.starts, steps := h.arr m.steps,
    vals := h.arr m.vals }

/-- `new`, `multilinear_regular.py` 40-71, `nearest_regular.py` 39-70, `multicubic_regular.py`
52-91 in `/repo/src/interpn`. -/
def new (np : Numpy F32 F64 X) (kind : ClassKind) (dims : List Int) (starts steps vals : Ref) :
    PyM F32 F64 X RegularRef := do
  let v ← PyM.read vals
  let is64 := match v with
    | .f64 _ => true
    | _ => false
  let s ← heapFlatten starts
  let s ← heapArray np is64 s
  let p ← heapFlatten steps
  let p ← heapArray np is64 p
  let w ← heapFlatten vals
  let w ← heapArray np is64 w
  let m : RegularRef := { kind := kind, dims := dims, starts := s, steps := p, vals := w }
  fun h => ((m.load h).validate.map fun _ => m, h)

/-- `eval_unchecked`, `multilinear_regular.py` 125-168, `nearest_regular.py` 126-169,
`multicubic_regular.py` 145-190 in `/repo/src/interpn`. -/
def evalUnchecked (B : Borrow) (np : Numpy F32 F64 X) (fma : Bool) (m : RegularRef) (obs : List Ref)
    (out : Option Ref) : PyM F32 F64 X Ref := do
  let outInner ← heapOut np obs out
  match ← PyM.read m.vals with
  | .f64 _ =>
    let dims ← PyM.ofExcept (pyEach pyUsize m.dims)
    heapRawRegular64 B fma m.kind.method dims m.starts m.steps m.vals m.kind.lin obs outInner
  | .f32 _ =>
    let dims ← PyM.ofExcept (pyEach pyUsize m.dims)
    heapRawRegular32 B fma m.kind.method dims m.starts m.steps m.vals m.kind.lin obs outInner
  | .other _ => PyM.ofExcept (.error .typeError)
  return outInner

/-- `eval`, `multilinear_regular.py` 101-123, `nearest_regular.py` 103-124, `multicubic_regular.py`
121-143 in `/repo/src/interpn`. -/
def eval (B : Borrow) (np : Numpy F32 F64 X) (fma : Bool) (m : RegularRef) (obs : List Ref)
    (out : Option Ref) : PyM F32 F64 X Ref := do
  let outInner ← heapOut np obs out
  let _ ← m.evalUnchecked B np fma obs (some outInner)
  return outInner

end RegularRef

namespace RectilinearRef

/-- The object with the present contents of its arrays. -/
def load (m : RectilinearRef) (h : Heap F32 F64 X) : RectilinearObj F32 F64 :=
  { kind := m.kind, grids := m.grids.map h.arr, vals := h.arr m.vals }

/-- `new`, `multilinear_rectilinear.py` 38-64, `nearest_rectilinear.py` 37-63,
`multicubic_rectilinear.py` 50-81 in `/repo/src/interpn`. -/
def new (np : Numpy F32 F64 X) (kind : ClassKind) (grids : List Ref) (vals : Ref) :
    PyM F32 F64 X RectilinearRef := do
  let v ← PyM.read vals
  let is64 := match v with
    | .f64 _ => true
    | _ => false
  let g ← PyM.each (fun r => do heapArray np is64 (← heapFlatten r)) grids
  let w ← heapFlatten vals
  let w ← heapArray np is64 w
  let m : RectilinearRef := { kind := kind, grids := g, vals := w }
  fun h => ((m.load h).validate.map fun _ => m, h)

/-- `eval_unchecked`, `multilinear_rectilinear.py` 122-161, `nearest_rectilinear.py` 119-158,
`multicubic_rectilinear.py` 139-180 in `/repo/src/interpn`. -/
def evalUnchecked (B : Borrow) (np : Numpy F32 F64 X) (fma : Bool) (m : RectilinearRef)
    (obs : List Ref) (out : Option Ref) : PyM F32 F64 X Ref := do
  let outInner ← heapOut np obs out
  match ← PyM.read m.vals with
  | .f64 _ => heapRawRectilinear64 B fma m.kind.method m.grids m.vals m.kind.lin obs outInner
  | .f32 _ => heapRawRectilinear32 B fma m.kind.method m.grids m.vals m.kind.lin obs outInner
  | .other _ => PyM.ofExcept (.error .typeError)
  return outInner

/-- `eval`, `multilinear_rectilinear.py` 97-120, `nearest_rectilinear.py` 96-117,
`multicubic_rectilinear.py` 114-137 in `/repo/src/interpn`. -/
def eval (B : Borrow) (np : Numpy F32 F64 X) (fma : Bool) (m : RectilinearRef) (obs : List Ref)
    (out : Option Ref) : PyM F32 F64 X Ref := do
  let outInner ← heapOut np obs out
  let _ ← m.evalUnchecked B np fma obs (some outInner)
  return outInner

end RectilinearRef

/-! ### The function `interpn` -/

/-- `out or np.zeros_like(obs[0])`, `/repo/src/interpn/__init__.py` 86. -/
def heapOutOr (np : Numpy F32 F64 X) (nx : NumpyX X) (out : Option Ref) (obs : List Ref) :
    PyM F32 F64 X Ref :=
  match out with
  | none => heapZerosFirst np obs
  | some r => do
    let a ← PyM.read r
    if ← PyM.ofExcept (a.contents.truth np nx) then return r else heapZerosFirst np obs

/-- The bounds check of `interpn` for `vals` of float64, `/repo/src/interpn/__init__.py` 115-132. -/
def heapCheckBounds64 (regular : Bool) (dims : List Nat) (starts steps : List F64)
    (grids obs : List Ref) (atol : F64) : PyM F32 F64 X Unit := do
  let gs ← PyM.each PyM.read grids
  let xs ← PyM.each PyM.read obs
  let flags ← PyM.ofExcept (
    if regular then do
      let obs ← pyEach MemArray.extract64 xs
      let obs ← unpackFrom 0 obs
      pyOfRes (checkBoundsRegular dims starts steps obs atol [false])
    else do
      let grids ← pyEach MemArray.extract64 gs
      let obs ← pyEach MemArray.extract64 xs
      let grids ← unpackFrom 0 grids
      let obs ← unpackFrom 0 obs
      pyOfRes (checkBoundsRectilinear grids obs atol [false]))
  if flags.any id then
    PyM.ofExcept (.error (.valueError "Observation points violate interpolator bounds"))
  else return ()

/-- `interpn` for `vals` of float64 from the regularity check to the choice of the raw routine
(`/repo/src/interpn/__init__.py` 100-134); all arrays have been flattened. Gives the routine, whether the
grid is regular, `dims`, and the new arrays `starts` and `steps` (for a grid that is not regular, empty
ones that are not used). -/
def heapPrepare64 (np : Numpy F32 F64 X) (nx : NumpyX X) (obs grids : List Ref) (method : String)
    (assumeRegular checkB : Bool) (atol : F64) :
    PyM F32 F64 X (RawCall × Bool × List Nat × Ref × Ref) := do
  let gs ← PyM.each PyM.read grids
  let contents := gs.map MemArray.contents
  let regular ← PyM.ofExcept (if assumeRegular then pure true else npCheckRegular nx true contents)
  let params ← PyM.ofExcept (if regular then pyEach (NpArray.startStep64 np nx) contents else pure [])
  let dims := if regular then contents.map NpArray.size else []
  let starts ← PyM.alloc (.f64 (params.map Prod.fst)) [params.length]
  let steps ← PyM.alloc (.f64 (params.map Prod.snd)) [params.length]
  let _ ← if checkB then
      heapCheckBounds64 regular dims (params.map Prod.fst) (params.map Prod.snd) grids obs atol
    else pure ()
  let call ← PyM.ofExcept (pyDispatch .float64 regular method)
  return (call, regular, dims, starts, steps)

/-- `interpn` from the regularity check on, for `vals` of float64
(`/repo/src/interpn/__init__.py` 100-192); all arrays have been flattened. -/
def heapInterpn64 (B : Borrow) (np : Numpy F32 F64 X) (nx : NumpyX X) (fma : Bool)
    (obs grids : List Ref) (vals : Ref) (method : String) (out : Ref)
    (lin assumeRegular checkB : Bool) (atol : F64) : PyM F32 F64 X RawCall := do
  let (call, regular, dims, starts, steps) ←
    heapPrepare64 np nx obs grids method assumeRegular checkB atol
  let _ ← if regular then heapRawRegular64 B fma call.method dims starts steps vals lin obs out
    else heapRawRectilinear64 B fma call.method grids vals lin obs out
  return call

/-- The same for float32. -/
def heapCheckBounds32 (np : Numpy F32 F64 X) (regular : Bool) (dims : List Nat) (starts steps : List F32)
    (grids obs : List Ref) (atol : F64) : PyM F32 F64 X Unit := do
  let gs ← PyM.each PyM.read grids
  let xs ← PyM.each PyM.read obs
  let flags ← PyM.ofExcept (
    if regular then do
      let obs ← pyEach MemArray.extract32 xs
      let obs ← unpackFrom 0 obs
      pyOfRes (checkBoundsRegular dims starts steps obs (np.f32of64 atol) [false])
    else do
      let grids ← pyEach MemArray.extract32 gs
      let obs ← pyEach MemArray.extract32 xs
      let grids ← unpackFrom 0 grids
      let obs ← unpackFrom 0 obs
      pyOfRes (checkBoundsRectilinear grids obs (np.f32of64 atol) [false]))
  if flags.any id then
    PyM.ofExcept (.error (.valueError "Observation points violate interpolator bounds"))
  else return ()

/-- The same for float32. -/
def heapPrepare32 (np : Numpy F32 F64 X) (nx : NumpyX X) (obs grids : List Ref) (method : String)
    (assumeRegular checkB : Bool) (atol : F64) :
    PyM F32 F64 X (RawCall × Bool × List Nat × Ref × Ref) := do
  let gs ← PyM.each PyM.read grids
  let contents := gs.map MemArray.contents
  let regular ← PyM.ofExcept (if assumeRegular then pure true else npCheckRegular nx true contents)
  let params ← PyM.ofExcept (if regular then pyEach (NpArray.startStep32 np nx) contents else pure [])
  let dims := if regular then contents.map NpArray.size else []
  let starts ← PyM.alloc (.f32 (params.map Prod.fst)) [params.length]
  let steps ← PyM.alloc (.f32 (params.map Prod.snd)) [params.length]
  let _ ← if checkB then
      heapCheckBounds32 np regular dims (params.map Prod.fst) (params.map Prod.snd) grids obs atol
    else pure ()
  let call ← PyM.ofExcept (pyDispatch .float32 regular method)
  return (call, regular, dims, starts, steps)

/-- The same for float32. -/
def heapInterpn32 (B : Borrow) (np : Numpy F32 F64 X) (nx : NumpyX X) (fma : Bool)
    (obs grids : List Ref) (vals : Ref) (method : String) (out : Ref)
    (lin assumeRegular checkB : Bool) (atol : F64) : PyM F32 F64 X RawCall := do
  let (call, regular, dims, starts, steps) ←
    heapPrepare32 np nx obs grids method assumeRegular checkB atol
  let _ ← if regular then heapRawRegular32 B fma call.method dims starts steps vals lin obs out
    else heapRawRectilinear32 B fma call.method grids vals lin obs out
  return call

/-- Python `interpn`, `/repo/src/interpn/__init__.py` 48-194: the raw routine that was called and the
returned array. -/
def heapInterpn (B : Borrow) (np : Numpy F32 F64 X) (nx : NumpyX X) (fma : Bool)
    (obs grids : List Ref) (vals : Ref) (method : String) (out : Option Ref)
    (lin assumeRegular checkB : Bool) (atol : F64) : PyM F32 F64 X (RawCall × Ref) := do
  let out ← heapOutOr np nx out obs
  let outshape := out.shape
  let out ← heapRavel out
  let obs ← PyM.each (fun x => do heapAsContiguous (← heapRavel x)) obs
  let grids ← PyM.each (fun x => do heapAsContiguous (← heapRavel x)) grids
  let vals ← (do heapAsContiguous (← heapRavel vals))
  let call ←
    match ← PyM.read vals with
    | .other _ =>
      PyM.ofExcept (.error (.assertionError "`interpn` defined only for float32 and float64 data"))
    | .f64 _ => heapInterpn64 B np nx fma obs grids vals method out lin assumeRegular checkB atol
    | .f32 _ => heapInterpn32 B np nx fma obs grids vals method out lin assumeRegular checkB atol
  return (call, out.reshape outshape)

end Interpn
