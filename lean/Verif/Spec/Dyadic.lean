import Verif.Spec.Ieee
import Mathlib.Algebra.BigOperators.Fin

/-! Fixed-point numbers, for the exactness property C118. -/

set_option autoImplicit false

namespace Interpn
open Ieee

/-- `q` is a whole multiple of `2^e`: a fixed-point number with `-e` binary places. -/
def Multiple (e : Int) (q : ℚ) : Prop := ∃ z : Int, q = z * 2 ^ e

/-- The multiples of `2^e` of size at most `B` have at most `p` digits and lie in the range of the
format. -/
structure Room (f : Format) (e : Int) (B : ℚ) : Prop where
  /-- `2^e` is not below the smallest subnormal number. -/
  fine : f.emin - (f.p - 1 : Int) ≤ e
  digits : B ≤ 2 ^ f.p * 2 ^ e
  range : B ≤ f.omega

/-- A rectilinear axis in fixed point: the nodes are multiples of `2^j`, and the width of every cell is
a power of two, between `2^j` and `2^(j + s)`. -/
structure FixedGrid (f : Format) (j : Int) (s : Nat) (grid : List (Ieee f)) : Prop where
  fine : f.emin - (f.p - 1 : Int) ≤ j
  digits : s ≤ f.p
  range : j + s ≤ f.emax
  finite : ∀ a ∈ grid, Finite a
  node : ∀ a ∈ grid, Multiple j (val a)
  width : ∀ i a b, grid[i]? = some a → grid[i + 1]? = some b →
    ∃ c : Nat, c ≤ s ∧ val b - val a = 2 ^ (j + c)

/-- A regular axis in fixed point: the start is a multiple of `2^j` and the step is `2^(j + s)`. -/
structure FixedRegular (f : Format) (j : Int) (s dim : Nat) (start step : Ieee f) : Prop where
  fine : f.emin - (f.p - 1 : Int) ≤ j
  range : j + f.p ≤ f.emax
  finite : Finite start ∧ Finite step
  origin : Multiple j (val start)
  spacing : val step = 2 ^ (j + s)
  /-- Differences of coordinates have at most `p` digits. -/
  few : (dim - 1) * 2 ^ s ≤ 2 ^ f.p
  /-- So have the first and the last node. -/
  size : |val start| ≤ 2 ^ (j + f.p) ∧
    |val start + val step * ((dim - 1 : Nat) : ℚ)| ≤ 2 ^ (j + f.p)

end Interpn
