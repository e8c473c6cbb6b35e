import Verif.Model.Multicubic.Mod
import Mathlib.Order.Defs.LinearOrder

/-! Specification of the cell search on rectilinear axes (C18). -/

set_option autoImplicit false

namespace Interpn
open FloatOps

variable {T : Type}

/-- `r` is the first cell when `v ≤ g[0]`, the last one when `v > g[n-1]`, and otherwise the one
and only cell `i` with `g[i] < v ≤ g[i+1]`. Cell `i` lies between the nodes `i` and `i + 1`. -/
def SelectsCell [LinearOrder T] (g : List T) (v : T) (r : Res Nat) : Prop :=
  ∃ i, ∃ hi : i + 1 < g.length, r = .ok i ∧
    (v ≤ g[0] → i = 0) ∧
    (g[g.length - 1] < v → i = g.length - 2) ∧
    (g[0] < v → v ≤ g[g.length - 1] →
      (g[i] < v ∧ v ≤ g[i + 1]) ∧
      ∀ (j : Nat) (hj : j + 1 < g.length), g[j] < v → v ≤ g[j + 1] → j = i)

/-- `r` is a footprint of four consecutive nodes `o .. o+3` with a flag. The footprint contains
the cell of `v` as its middle cell, or is pushed inwards at the edge of the grid; the flag tells
whether `v` is below the grid, in the first cell, in the last cell, above the grid, or none of
these. -/
def SelectsFootprint [LinearOrder T] (g : List T) (v : T) (r : Res (Nat × Saturation)) : Prop :=
  ∃ i o sat, ∃ ho : o + 3 < g.length, SelectsCell g v (.ok i) ∧ r = .ok (o, sat) ∧
    o ≤ i ∧ i + 1 ≤ o + 3 ∧ (i = 0 ∨ i + 2 = g.length ∨ o + 1 = i) ∧
    (sat = .outsideLow ↔ v ≤ g[0]) ∧
    (sat = .insideLow ↔ g[0] < v ∧ v ≤ g[1]) ∧
    (sat = .insideHigh ↔ g[g.length - 2] < v ∧ v ≤ g[g.length - 1]) ∧
    (sat = .outsideHigh ↔ g[g.length - 1] < v)

/-- The same for any arithmetic, in terms of the comparison `g[i] < v` of that arithmetic, which
is only required to be downward closed along the grid. -/
def SelectsCellLawFree [FloatOps T] (g : List T) (v : T) (r : Res Nat) : Prop :=
  (∀ (i j : Nat) (_ : i ≤ j) (hj : j < g.length), (g[j] <. v) = true → (g[i] <. v) = true) →
  ∃ i, ∃ hi : i + 1 < g.length, r = .ok i ∧
    ((g[0] <. v) = false → i = 0) ∧
    ((g[g.length - 1] <. v) = true → i + 2 = g.length) ∧
    ((g[0] <. v) = true → (g[g.length - 1] <. v) = false →
      (g[i] <. v) = true ∧ (g[i + 1] <. v) = false)

end Interpn
