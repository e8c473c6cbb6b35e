import Verif.Model.PythonClasses
import Verif.Spec.EntryPoints
import Verif.Spec.Slices

/-! Specification of the Python classes. -/

set_option autoImplicit false

namespace Interpn
open FloatOps

/-! ### Which data a class accepts -/

section
variable {F32 F64 X : Type} [FloatOps F32] [FloatOps F64]

/-- The contents of an array satisfy a condition that makes sense for both element types. -/
def Arr.Satisfies (P : ∀ {T : Type} [FloatOps T], List T → Prop) : Arr F32 F64 → Prop
  | .f32 d => P d
  | .f64 d => P d

/-- Every difference of consecutive entries exceeds zero. -/
def IncreasingSteps {T : Type} [FloatOps T] (g : List T) : Prop :=
  ∀ i (h : i + 1 < g.length), (zero <. (g[i + 1] -. g[i])) = true

/-- Every entry exceeds zero. -/
def AllPositive {T : Type} [FloatOps T] (g : List T) : Prop := ∀ x ∈ g, (zero <. x) = true

/-- Data accepted by the regular-grid classes: 1 to 8 axes (6 for nearest neighbor), one start and
one step per axis, as many values as the product of the dimensions, positive steps, and steps (for
nearest neighbor also starts) of the element type of the values. -/
structure RegularObj.Valid (m : RegularObj F32 F64) : Prop where
  ndims : 1 ≤ m.dims.length ∧ m.dims.length ≤ if m.kind = .nearest then 6 else 8
  starts : m.starts.size = m.dims.length
  steps : m.steps.size = m.dims.length
  vals : (m.vals.size : Int) = m.dims.prod
  positive : m.steps.Satisfies AllPositive
  dtype : m.steps.dtype = m.vals.dtype ∧ (m.kind = .nearest → m.starts.dtype = m.vals.dtype)

/-- Data accepted by the rectilinear-grid classes: 1 to 8 grids (6 for nearest neighbor), as many
values as the product of their lengths, all grids increasing and of the element type of the
values. -/
structure RectilinearObj.Valid (m : RectilinearObj F32 F64) : Prop where
  ndims : 1 ≤ m.grids.length ∧ m.grids.length ≤ if m.kind = .nearest then 6 else 8
  vals : m.vals.size = (m.grids.map Arr.size).prod
  increasing : ∀ g ∈ m.grids, g.Satisfies IncreasingSteps
  dtype : ∀ g ∈ m.grids, g.dtype = m.vals.dtype

/-- Element type of a numpy array. -/
def NpArray.dtype : NpArray F32 F64 X → Dtype
  | .f32 _ => .float32
  | .f64 _ => .float64
  | .other _ => .other

/-- The entries of a numpy array as float64. -/
def NpArray.values64 (np : Numpy F32 F64 X) : NpArray F32 F64 X → List F64
  | .f32 d => d.map np.f64of32
  | .f64 d => d
  | .other d => d.map np.f64ofX

/-- The entries of a numpy array as float32. -/
def NpArray.values32 (np : Numpy F32 F64 X) : NpArray F32 F64 X → List F32
  | .f32 d => d
  | .f64 d => d.map np.f32of64
  | .other d => d.map np.f32ofX

/-- Dumping to JSON loses nothing: float lists survive printing and parsing, float32 survives the
conversion to float64 and back. (Facts about Python and IEEE 754, not about this code.) -/
structure Faithful (np : Numpy F32 F64 X) (js : Json F64) : Prop where
  json : ∀ l, js.loads (js.dumps l) = some l
  cast : ∀ x, np.f32of64 (np.f64of32 x) = x

end

/-! ### Which routine a class runs -/

section
variable {T : Type} [FloatOps T] {N : Nat}

/-- The Rust entry point for a regular grid. -/
def ClassKind.runRegular (k : ClassKind) (fma : Bool) (dims : List Nat) (starts steps vals : List T)
    (obs : List (List T)) (out : List T) : Res Unit × List T :=
  match k with
  | .multilinear => multilinearRegularInterpn fma dims starts steps vals obs out
  | .nearest => nearestRegularInterpn fma dims starts steps vals obs out
  | .multicubic lin => multicubicRegularInterpn fma dims starts steps vals lin obs out

/-- The Rust entry point for a rectilinear grid. -/
def ClassKind.runRectilinear (k : ClassKind) (fma : Bool) (grids : List (List T)) (vals : List T)
    (obs : List (List T)) (out : List T) : Res Unit × List T :=
  match k with
  | .multilinear => multilinearRectilinearInterpn fma grids vals obs out
  | .nearest => nearestRectilinearInterpn grids vals obs out
  | .multicubic lin => multicubicRectilinearInterpn fma grids vals lin obs out

/-- What a Python caller sees of a Rust outcome: the buffer as an array, or an exception. -/
def pyOutcome {α β : Type} (wrap : List α → β) (r : Res Unit × List α) : Except PyExc β :=
  match r.1 with
  | .ok _ => .ok (wrap r.2)
  | .err m => .error (.assertionError m)
  | .panic => .error .panicException

/-- Smallest number of nodes per axis. -/
def ClassKind.minNodes : ClassKind → Nat
  | .multicubic _ => 4
  | _ => 2

/-- Error of the Rust constructors for fewer nodes, regular grids. -/
def ClassKind.tooFewRegular : ClassKind → String
  | .multicubic _ => "All grids must have at least four entries"
  | _ => "All grids must have at least two entries"

/-- Error of the Rust constructors for fewer nodes, rectilinear grids. -/
def ClassKind.tooFewRectilinear : ClassKind → String
  | .multicubic _ => "All grids must have at least 4 entries"
  | _ => "All grids must have at least 2 entries"

/-- One observation evaluated through the Rust interface, regular grid. -/
def ClassKind.regularAt (k : ClassKind) (fma : Bool) (dims : Fin N → Nat) (starts steps : Fin N → T)
    (vals : List T) (x : Fin N → T) : Res T :=
  match k with
  | .multilinear => multilinearRegularAt (linearImpl N) fma dims starts steps vals x
  | .nearest => nearestRegularAt fma dims starts steps vals x
  | .multicubic lin => multicubicRegularAt (cubicImpl N) fma dims starts steps vals lin x

/-- One observation evaluated through the Rust interface, rectilinear grid. -/
def ClassKind.rectilinearAt (k : ClassKind) (fma : Bool) (grids : Fin N → List T)
    (vals : List T) (x : Fin N → T) : Res T :=
  match k with
  | .multilinear => multilinearRectilinearAt (linearImpl N) fma grids vals x
  | .nearest => nearestRectilinearAt grids vals x
  | .multicubic lin => multicubicRectilinearAt (cubicImpl N) fma grids vals lin x

/-- Subtraction detects order: `b - a > 0` exactly if `a < b`. True for IEEE floats (thanks to
subnormal numbers, and also for infinities and NaN) and in exact arithmetic. -/
def SubDetectsOrder (T : Type) [FloatOps T] : Prop :=
  ∀ a b : T, (zero <. (b -. a)) = (a <. b)

end

end Interpn
