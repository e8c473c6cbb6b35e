import Verif.Spec.BinaryFormat

/-! Decimal numbers as strings of digits, and what it means to print a float with as few digits as
possible. -/

set_option autoImplicit false

namespace Interpn

/-- The whole number with the decimal digits `ds`, most significant first. -/
def natOf (ds : List Nat) : Nat := ds.foldl (fun a d => 10 * a + d) 0

/-- The number `0.d₁d₂d₃… * 10^decpt` with the digits `ds`. -/
def decValue (ds : List Nat) (decpt : Int) : ℚ := natOf ds * 10 ^ (decpt - ds.length)

/-- `ds`, `decpt` is a decimal number that reads as the positive number `q` of the format: the first
digit is not zero, and `q` is the result of rounding. -/
structure IsDecimal (f : Format) (q : ℚ) (ds : List Nat) (decpt : Int) : Prop where
  digit : ∀ d ∈ ds, d < 10
  head : ∃ d l, ds = d :: l ∧ d ≠ 0
  round : f.roundQ (decValue ds decpt) = q

/-- A decimal number that reads as `q`, with as few digits as possible. -/
structure IsShortest (f : Format) (q : ℚ) (ds : List Nat) (decpt : Int) : Prop extends
    IsDecimal f q ds decpt where
  shortest : ∀ ds' decpt', IsDecimal f q ds' decpt' → ds.length ≤ ds'.length

end Interpn
