import Verif.Spec.Grid

/-! Functions of one variable that are described by conditions on every cell of an axis, without
reference to how they are computed. -/

set_option autoImplicit false

namespace Interpn

variable {K : Type} [Field K] [LinearOrder K]

/-- On every cell of the axis with `n` nodes `p`, `φ` is an affine function (the first and last one
reach beyond the grid). -/
def PiecewiseAffine (n : Nat) (p : Nat → K) (φ : K → K) : Prop :=
  ∀ i, i + 1 < n → ∃ a b, ∀ z, InCell n p z i → φ z = a + b * z

/-- `φ` is on cell `i` the polynomial with coefficients `c0`, `c1`, `c2`, `c3` of degree 3, in the
first and last cell of degree 2, whose derivative at an end `j` of the cell that is not an end of the
axis is
`(h₋ s₊ + h₊ s₋) / (h₋ + h₊)`,
where `h₋`, `h₊` are the widths of the cells on both sides of node `j` and `s₋`, `s₊` the slopes of the
chords of `φ`. If `lin`, then outside the grid `φ` is instead the tangent at the end of the grid. -/
structure CubicOnCell (n : Nat) (p : Nat → K) (lin : Bool) (φ : K → K) (i : Nat) (c0 c1 c2 c3 : K) :
    Prop where
  /-- the values -/
  eq : ∀ z, InCell n p z i → (lin = true → InRange n p z) →
    φ z = c0 + c1 * z + c2 * z ^ 2 + c3 * z ^ 3
  /-- degree 2 at the ends -/
  deg : i = 0 ∨ i + 2 = n → c3 = 0
  /-- derivative at the ends of the cell -/
  slope : ∀ j, j = i ∨ j = i + 1 → 1 ≤ j → j + 1 < n →
    c1 + 2 * c2 * p j + 3 * c3 * p j ^ 2 =
      ((p j - p (j - 1)) * ((φ (p (j + 1)) - φ (p j)) / (p (j + 1) - p j)) +
        (p (j + 1) - p j) * ((φ (p j) - φ (p (j - 1))) / (p j - p (j - 1)))) / (p (j + 1) - p (j - 1))
  /-- tangent below the grid -/
  below : lin = true → i = 0 → ∀ z, z < p 0 →
    φ z = φ (p 0) + (c1 + 2 * c2 * p 0 + 3 * c3 * p 0 ^ 2) * (z - p 0)
  /-- tangent above the grid -/
  above : lin = true → i + 2 = n → ∀ z, p (i + 1) < z →
    φ z = φ (p (i + 1)) + (c1 + 2 * c2 * p (i + 1) + 3 * c3 * p (i + 1) ^ 2) * (z - p (i + 1))

/-- `φ` is such a polynomial on every cell. -/
def PiecewiseCubic (n : Nat) (p : Nat → K) (lin : Bool) (φ : K → K) : Prop :=
  ∀ i, i + 1 < n → ∃ c0 c1 c2 c3, CubicOnCell n p lin φ i c0 c1 c2 c3

end Interpn
