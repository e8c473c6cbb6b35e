import Mathlib.Data.Int.Log
import Mathlib.Data.Rat.Floor

/-! Binary floating-point formats of IEEE 754 and rounding to nearest. -/

set_option autoImplicit false

namespace Interpn

/-- A binary interchange format (IEEE 754-2019, section 3.3): `p` digits, largest exponent `emax`. -/
structure Format where
  p : Nat
  emax : Nat
  two_le_p : 2 ≤ p
  p_le_emax : p ≤ emax

/-- binary32, Rust `f32`. -/
def Format.binary32 : Format := ⟨24, 127, by decide, by decide⟩

/-- binary64, Rust `f64`. -/
def Format.binary64 : Format := ⟨53, 1023, by decide, by decide⟩

/-- Nearest whole number, ties to even. -/
def roundHalfEven (x : ℚ) : Int :=
  if x - ⌊x⌋ < 1 / 2 then ⌊x⌋
  else if 1 / 2 < x - ⌊x⌋ then ⌊x⌋ + 1
  else if ⌊x⌋ % 2 = 0 then ⌊x⌋ else ⌊x⌋ + 1

namespace Format
variable (f : Format)

/-- Least exponent of a normal number. -/
def emin : Int := 1 - f.emax

/-- The finite floats: `m * 2^e` with at most `p` digits `m` and `e` in the range of the format. -/
def Representable (q : ℚ) : Prop :=
  ∃ m e : Int, |m| < 2 ^ f.p ∧ f.emin - (f.p - 1 : Int) ≤ e ∧ e ≤ f.emax - (f.p - 1 : Int) ∧
    q = m * 2 ^ e

/-- The largest float. -/
def omega : ℚ := (2 ^ f.p - 1) * 2 ^ ((f.emax : Int) - (f.p - 1))

/-- Weight of the last digit kept when `q` is rounded: `p` digits, fewer below the normal range. -/
def quantum (q : ℚ) : ℚ := 2 ^ (max (Int.log 2 |q|) f.emin - (f.p - 1 : Int))

/-- Nearest multiple of the quantum, ties to even (section 4.3.1, before the check for overflow). -/
def roundQ (q : ℚ) : ℚ := roundHalfEven (q / f.quantum q) * f.quantum q

/-- Bound on the relative rounding error. -/
def unitRoundoff : ℚ := 1 / 2 ^ f.p

/-- Bound on the rounding error of a result below the normal range. -/
def underflow : ℚ := 2 ^ (f.emin - (f.p : Int))

end Format
end Interpn
