import Verif.Model.PythonShapes
import Verif.Spec.Python
import Verif.Spec.PythonClasses

/-! Specification of shapes and element types in the Python interface. -/

set_option autoImplicit false

namespace Interpn
open FloatOps

variable {F32 F64 X : Type} [FloatOps F32] [FloatOps F64]

namespace NdArray

/-- As many entries as the shape says. -/
def WellShaped (a : NdArray F32 F64 X) : Prop := a.contents.size = a.shape.prod

/-- Element type. -/
def dtype (a : NdArray F32 F64 X) : Dtype := a.contents.dtype

/-- A float64 array from its shape and entries. -/
def f64 (a : List Nat × List F64) : NdArray F32 F64 X := ⟨a.1, .f64 a.2⟩

/-- A float32 array from its shape and entries. -/
def f32 (a : List Nat × List F32) : NdArray F32 F64 X := ⟨a.1, .f32 a.2⟩

end NdArray

/-- Shape of the array that `interpn` returns: that of the first observation array, except that a
given `out` with exactly one, non-zero entry keeps its own. -/
def returnShape {T : Type} [FloatOps T] (obs : List (List Nat × List T))
    (out : Option (List Nat × List T)) : List Nat :=
  match out with
  | some (sh, [v]) => if feq v zero then (obs.map Prod.fst).headD [] else sh
  | _ => (obs.map Prod.fst).headD []

/-- The first two entries of a grid of any element type, as `start` and `step` of element type
float64: the step is the difference in the element type of the grid, then converted. -/
def IsStartStep64 (np : Numpy F32 F64 X) (nx : NumpyX X) (g : NpArray F32 F64 X) (start step : F64) :
    Prop :=
  match g with
  | .f64 d => ∃ a b r, d = a :: b :: r ∧ start = a ∧ step = b -. a
  | .f32 d => ∃ a b r, d = a :: b :: r ∧ start = np.f64of32 a ∧ step = np.f64of32 (b -. a)
  | .other d => ∃ a b r, d = a :: b :: r ∧ start = np.f64ofX a ∧ step = np.f64ofX (nx.sub b a)

/-- The same for float32. -/
def IsStartStep32 (np : Numpy F32 F64 X) (nx : NumpyX X) (g : NpArray F32 F64 X) (start step : F32) :
    Prop :=
  match g with
  | .f64 d => ∃ a b r, d = a :: b :: r ∧ start = np.f32of64 a ∧ step = np.f32of64 (b -. a)
  | .f32 d => ∃ a b r, d = a :: b :: r ∧ start = a ∧ step = b -. a
  | .other d => ∃ a b r, d = a :: b :: r ∧ start = np.f32ofX a ∧ step = np.f32ofX (nx.sub b a)

/-- All spacings compare equal to the first, in the element type of the grid. -/
def NpArray.UniformlySpaced (nx : NumpyX X) : NpArray F32 F64 X → Prop
  | .f64 d => UniformSpacing d
  | .f32 d => UniformSpacing d
  | .other d => ∀ (i : Nat) (h : i + 1 < d.length) (h1 : 1 < d.length),
      nx.eq (nx.sub d[i + 1] d[i]) (nx.sub d[1] d[0]) = true

end Interpn
