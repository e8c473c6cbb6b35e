import Verif.Model.PythonHeap
import Verif.Spec.PythonLayout

/-! Specification of memory effects in the Python interface. -/

set_option autoImplicit false

namespace Interpn

/-- What is assumed about rust-numpy's borrow check: a read-only array cannot be borrowed for writing,
nor can an array that has an element in common with one that is borrowed for reading; a writeable array
in a buffer of its own can. (Views of one buffer without a common element may be refused.) -/
structure Borrow.Lawful (B : Borrow) : Prop where
  writeable : ∀ rs out, B.allowed rs out = true → out.writeable = true
  disjoint : ∀ rs out, B.allowed rs out = true → ∀ r ∈ rs, r.buf = out.buf →
    ∀ p ∈ r.positions, p ∉ out.positions
  separate : ∀ rs out, out.writeable = true → (∀ r ∈ rs, r.buf ≠ out.buf) → B.allowed rs out = true

/-- A borrow check that refuses nothing but what must be refused; for the concrete cases. -/
def exactBorrow : Borrow where
  allowed rs out := out.writeable && rs.all fun r =>
    r.buf != out.buf || r.positions.all fun p => !out.positions.contains p
  exc := .valueError "borrow"

section
variable {F32 F64 X : Type}

/-- The array exists in this memory, all its elements inside its buffer. -/
def Ref.In (r : Ref) (h : Heap F32 F64 X) : Prop :=
  r.buf < h.length ∧ (h.load r).WellFormed

/-- Same element type and length, and the same elements where `P` does not hold. -/
def NpArray.SameExcept (P : Nat → Prop) : NpArray F32 F64 X → NpArray F32 F64 X → Prop
  | .f32 a, .f32 b => b.length = a.length ∧ ∀ i, ¬ P i → b[i]? = a[i]?
  | .f64 a, .f64 b => b.length = a.length ∧ ∀ i, ¬ P i → b[i]? = a[i]?
  | .other a, .other b => b.length = a.length ∧ ∀ i, ¬ P i → b[i]? = a[i]?
  | _, _ => False

/-- All buffers are still there and hold what they held, but for the elements of the arrays in
`outs`. -/
def Heap.SameExcept (outs : List Ref) (h h' : Heap F32 F64 X) : Prop :=
  ∀ b d, h[b]? = some d → ∃ d', h'[b]? = some d' ∧
    NpArray.SameExcept (fun i => ∃ o ∈ outs, o.buf = b ∧ (i : Int) ∈ o.positions) d d'

/-- Buffers of an object. -/
def RegularRef.bufs (m : RegularRef) : List Nat := [m.starts.buf, m.steps.buf, m.vals.buf]

/-- Buffers of an object. -/
def RectilinearRef.bufs (m : RectilinearRef) : List Nat := m.vals.buf :: m.grids.map Ref.buf

/-- An array of float32 or float64 with one axis and contiguous, as the fields of the classes are. -/
def Ref.Field (r : Ref) (h : Heap F32 F64 X) : Prop :=
  r.In h ∧ (h.load r).Contiguous1 ∧ ∀ a, h.load r ≠ .other a

/-- The arrays of the object are as `new` makes them. -/
def RegularRef.Sound (m : RegularRef) (h : Heap F32 F64 X) : Prop :=
  m.starts.Field h ∧ m.steps.Field h ∧ m.vals.Field h

/-- The arrays of the object are as `new` makes them. -/
def RectilinearRef.Sound (m : RectilinearRef) (h : Heap F32 F64 X) : Prop :=
  (∀ g ∈ m.grids, g.Field h) ∧ m.vals.Field h

variable [FloatOps F32] [FloatOps F64]

/-- What a Python program can do to the memory: create an array, change a buffer in place, make an
interpolator, evaluate one, call `interpn`. -/
inductive PyOp (F32 F64 X : Type) where
  | create (data : NpArray F32 F64 X)
  | assign (b : Nat) (data : NpArray F32 F64 X)
  | newRegular (kind : ClassKind) (dims : List Int) (starts steps vals : Ref)
  | newRectilinear (kind : ClassKind) (grids : List Ref) (vals : Ref)
  | evalRegular (m : RegularRef) (obs : List Ref) (out : Option Ref)
  | evalRectilinear (m : RectilinearRef) (obs : List Ref) (out : Option Ref)
  | interpn (obs grids : List Ref) (vals : Ref) (method : String) (out : Option Ref)
      (lin assumeRegular checkB : Bool) (atol : F64)

/-- The memory afterwards; exceptions are caught by the program. -/
def PyOp.run (B : Borrow) (np : Numpy F32 F64 X) (nx : NumpyX X) (fma : Bool) (h : Heap F32 F64 X) :
    PyOp F32 F64 X → Heap F32 F64 X
  | .create d => h ++ [d]
  | .assign b d => h.set b d
  | .newRegular kind dims starts steps vals => (RegularRef.new np kind dims starts steps vals h).2
  | .newRectilinear kind grids vals => (RectilinearRef.new np kind grids vals h).2
  | .evalRegular m obs out => (m.eval B np fma obs out h).2
  | .evalRectilinear m obs out => (m.eval B np fma obs out h).2
  | .interpn obs grids vals method out lin assumeRegular checkB atol =>
    (heapInterpn B np nx fma obs grids vals method out lin assumeRegular checkB atol h).2

/-- The buffers that the program itself asks to be written to. -/
def PyOp.targets : PyOp F32 F64 X → List Nat
  | .assign b _ => [b]
  | .evalRegular _ _ out => (out.map Ref.buf).toList
  | .evalRectilinear _ _ out => (out.map Ref.buf).toList
  | .interpn _ _ _ _ out _ _ _ _ => (out.map Ref.buf).toList
  | _ => []

/-- An array given as `out` exists. -/
def PyOp.Valid (h : Heap F32 F64 X) : PyOp F32 F64 X → Prop
  | .evalRegular _ _ out => ∀ o ∈ out, o.In h
  | .evalRectilinear _ _ out => ∀ o ∈ out, o.In h
  | .interpn _ _ _ _ out _ _ _ _ => ∀ o ∈ out, o.In h
  | _ => True

/-- A program: one operation after the other. -/
def PyOp.runAll (B : Borrow) (np : Numpy F32 F64 X) (nx : NumpyX X) (fma : Bool)
    (h : Heap F32 F64 X) (ops : List (PyOp F32 F64 X)) : Heap F32 F64 X :=
  ops.foldl (PyOp.run B np nx fma) h

/-- Every array given as `out` exists when the operation is run. -/
def PyOp.ValidAll (B : Borrow) (np : Numpy F32 F64 X) (nx : NumpyX X) (fma : Bool) :
    Heap F32 F64 X → List (PyOp F32 F64 X) → Prop
  | _, [] => True
  | h, op :: rest => op.Valid h ∧ PyOp.ValidAll B np nx fma (op.run B np nx fma h) rest

end

end Interpn
