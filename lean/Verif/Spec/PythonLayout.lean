import Verif.Model.PythonLayout
import Verif.Spec.PythonShapes

/-! Specification of memory layouts in the Python interface. -/

set_option autoImplicit false

namespace Interpn

/-- An array that numpy can make: one stride for each axis, all elements inside the buffer. -/
def Strided.WellFormed {α : Type} (a : Strided α) : Prop :=
  a.shape.length = a.strides.length ∧ ∀ p ∈ a.positions, 0 ≤ p ∧ p < a.buffer.length

/-- A one-dimensional array whose elements lie one after the other in memory. -/
def Strided.Contiguous1 {α : Type} (a : Strided α) : Prop :=
  ∃ n s, a.shape = [n] ∧ a.strides = [s] ∧ (n ≤ 1 ∨ s = 1)

/-- The same elements of a buffer: position of the first one, shape and strides agree. -/
def Strided.SameView {α : Type} (a b : Strided α) : Prop :=
  b.offset = a.offset ∧ b.shape = a.shape ∧ b.strides = a.strides

/-- The buffer of `b` is that of `a`, changed at most at the elements of `a`. -/
def Strided.SameOutside {α : Type} (a b : Strided α) : Prop :=
  b.buffer.length = a.buffer.length ∧
    ∀ p : Nat, (p : Int) ∉ a.positions → b.buffer[p]? = a.buffer[p]?

/-- The same shape, and the same places in the buffer, element by element. -/
def Strided.SamePlaces {α : Type} (a b : Strided α) : Prop :=
  b.shape = a.shape ∧ b.positions = a.positions

/-- Number of the element with index `ix` in C order (last index fastest). -/
def flatIndex : List Nat → List Nat → Nat
  | _ :: shape, i :: ix => i * shape.prod + flatIndex shape ix
  | _, _ => 0

/-- Place of the element with index `ix` in the buffer: each step along an axis adds its stride. -/
def Strided.place {α : Type} (a : Strided α) (ix : List Nat) : Int :=
  a.offset + (List.zipWith (fun (i : Nat) (s : Int) => i * s) ix a.strides).sum

namespace MemArray
variable {F32 F64 X : Type}

/-- An array that numpy can make. -/
def WellFormed : MemArray F32 F64 X → Prop
  | .f32 a => a.WellFormed
  | .f64 a => a.WellFormed
  | .other a => a.WellFormed

/-- One-dimensional, elements one after the other in memory. -/
def Contiguous1 : MemArray F32 F64 X → Prop
  | .f32 a => a.Contiguous1
  | .f64 a => a.Contiguous1
  | .other a => a.Contiguous1

/-- Same element type, and the same elements of a buffer. -/
def SameView : MemArray F32 F64 X → MemArray F32 F64 X → Prop
  | .f32 a, .f32 b => a.SameView b
  | .f64 a, .f64 b => a.SameView b
  | .other a, .other b => a.SameView b
  | _, _ => False

/-- Same element type, and a buffer changed at most at the elements of the first array. -/
def SameOutside : MemArray F32 F64 X → MemArray F32 F64 X → Prop
  | .f32 a, .f32 b => a.SameOutside b
  | .f64 a, .f64 b => a.SameOutside b
  | .other a, .other b => a.SameOutside b
  | _, _ => False

/-- Same element type and shape, and the same places in the buffer, element by element. -/
def SamePlaces : MemArray F32 F64 X → MemArray F32 F64 X → Prop
  | .f32 a, .f32 b => a.SamePlaces b
  | .f64 a, .f64 b => a.SamePlaces b
  | .other a, .other b => a.SamePlaces b
  | _, _ => False

/-- What Python sees of an array: shape, element type and elements, whatever the layout. -/
def seen (a : MemArray F32 F64 X) : NdArray F32 F64 X := ⟨a.shape, a.contents⟩

end MemArray

end Interpn
