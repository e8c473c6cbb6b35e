import Verif.Model.Core
import Mathlib.Algebra.Order.Floor.Ring
import Mathlib.Algebra.Order.Field.Basic

/-! Exact arithmetic: every ordered field with a floor function is an instance of
`FloatOps` with no rounding. `toIsize` truncates towards zero and fails outside the
`isize` range, like `NumCast`; `ofUsize` never fails (as for `f32`/`f64`). -/

set_option autoImplicit false

namespace Interpn

/-- Truncation towards zero, the meaning of a float-to-integer cast. -/
def truncZ {K : Type} [Field K] [LinearOrder K] [FloorRing K] (x : K) : Int :=
  if 0 ≤ x then ⌊x⌋ else ⌈x⌉

/-- Exact-arithmetic instance of the float operations. -/
@[reducible] def exactOps (K : Type) [Field K] [LinearOrder K] [FloorRing K] : FloatOps K where
  zero := 0
  one := 1
  add := (· + ·)
  sub := (· - ·)
  mul := (· * ·)
  div := (· / ·)
  neg := (- ·)
  abs := fun x => if 0 ≤ x then x else -x
  floor := fun x => (⌊x⌋ : K)
  mulAdd := fun a b c => a * b + c
  fmin := min
  fmax := max
  lt := fun a b => decide (a < b)
  le := fun a b => decide (a ≤ b)
  toIsize := fun x =>
    if isizeMin ≤ truncZ x ∧ truncZ x ≤ isizeMax then some (truncZ x) else none
  ofUsize := fun n => some (n : K)
  toIsize_range := by
    intro x z h
    split at h
    · next h' => cases h; exact h'
    · cases h

end Interpn
