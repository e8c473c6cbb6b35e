import Verif.Lemmas.Ieee
import Verif.Lemmas.ExampleGrids

/-! Concrete `f32` and `f64` data for the examples. -/

set_option autoImplicit false

namespace Interpn
open Ieee

/-- The `f64` nearest to a rational number. -/
def q64 (q : ℚ) : F64 := rnd _ false q
/-- The `f32` nearest to a rational number. -/
def q32 (q : ℚ) : F32 := rnd _ false q

/-- A 3×2 grid. -/
def exGrids64 : Fin 2 → List F64 := ![[q64 0, q64 (1 / 10), q64 4], [q64 1, q64 3]]
/-- The same in `f32`. -/
def exGrids32 : Fin 2 → List F32 := ![[q32 0, q32 (1 / 10), q32 4], [q32 1, q32 3]]
/-- Values on a 3×2 grid. -/
def exVals64 : List F64 := [q64 2, q64 6, q64 (-7), q64 16, q64 10, q64 (1 / 3)]
/-- The same in `f32`. -/
def exVals32 : List F32 := [q32 2, q32 6, q32 (-7), q32 16, q32 10, q32 (1 / 3)]

/-- A 4×5 grid whose adjacent cells differ in width by up to a factor of 2. -/
def exGrids64c : Fin 2 → List F64 :=
  ![[q64 0, q64 1, q64 3, q64 4], [q64 0, q64 (1 / 2), q64 1, q64 2, q64 3]]
/-- The same in `f32`. -/
def exGrids32c : Fin 2 → List F32 :=
  ![[q32 0, q32 1, q32 3, q32 4], [q32 0, q32 (1 / 2), q32 1, q32 2, q32 3]]
/-- Values on a 4×5 grid. -/
def exVals64c : List F64 := ([2, 6, -7, 16, 10, 1 / 3, 5, 1, -2, 8, 0, 7, 1 / 10, 4, -9, 6, 2, -1, 12,
  5 / 2] : List ℚ).map q64
/-- The same in `f32`. -/
def exVals32c : List F32 := ([2, 6, -7, 16, 10, 1 / 3, 5, 1, -2, 8, 0, 7, 1 / 10, 4, -9, 6, 2, -1, 12,
  5 / 2] : List ℚ).map q32

/-- The numbers behave as expected: `0.1 + 0.2` is not `0.3`, subnormal numbers are rounded to even,
large sums overflow, zeros have signs. -/
example : FloatOps.add (q64 (1 / 10)) (q64 (2 / 10)) ≠ q64 (3 / 10) ∧
    FloatOps.add (q64 (1 / 10)) (q64 (2 / 10)) = q64 (30000000000000004 / 10 ^ 17) ∧
    FloatOps.div (q64 (1 / 2 ^ 1074)) (q64 2) = FloatOps.zero ∧
    FloatOps.div (q64 (3 / 2 ^ 1074)) (q64 2) = q64 (2 / 2 ^ 1074) ∧
    FloatOps.add (q64 (2 ^ 1023)) (q64 (2 ^ 1023)) = .inf false ∧
    FloatOps.div (q32 1) (FloatOps.neg FloatOps.zero) = .inf true ∧
    FloatOps.add (q32 (2 ^ 24)) (q32 1) = q32 (2 ^ 24) := by
  decide +kernel

end Interpn
