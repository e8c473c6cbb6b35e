import Verif.Spec.Ieee
import Verif.Model.PythonClasses

/-! numpy's conversions between float32 and float64 in IEEE 754 arithmetic. -/

set_option autoImplicit false

namespace Interpn
namespace Ieee

/-- Conversion between formats (IEEE 754-2019, 5.4.2): the number is rounded, its sign kept; infinities
and NaN are preserved. -/
def convert {f : Format} (g : Format) : Ieee f → Ieee g
  | fin s q _ _ => rnd g s q
  | inf s => inf s
  | nan => nan

end Ieee

/-- numpy's `astype` for `float32` and `float64`. Arrays of another type hold whole numbers here. -/
def ieeeNumpy : Numpy F32 F64 Int where
  f32of64 := Ieee.convert _
  f64of32 := Ieee.convert _
  f32ofX z := Ieee.rnd _ false z
  f64ofX z := Ieee.rnd _ false z
  zeroX := 0

/-- The `f32` nearest to an `f64`: Rust `a as f32`, numpy `a.astype(np.float32)`. -/
def single (a : F64) : F32 := ieeeNumpy.f32of64 a

end Interpn
