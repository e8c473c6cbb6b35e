import Verif.Spec.Ieee
import Verif.Spec.Grid

/-! Rectilinear 1-D grids of IEEE 754 numbers (C90). -/

set_option autoImplicit false

namespace Interpn
open Ieee

variable {f : Format}

/-- The nodes of a rectilinear 1-D grid. -/
def nodes1D (grid : List (Ieee f)) (i : Nat) : ℚ := (grid.map val).getD i 0

/-- A usable rectilinear 1-D grid: finite nodes in increasing order, at least two, one value each. -/
structure Grid1DOk (grid vals : List (Ieee f)) : Prop where
  slice : IsSlice vals
  len : vals.length = grid.length
  big : 2 ≤ grid.length
  finite : ∀ a ∈ grid, Finite a
  increasing : ∀ i, i + 1 < grid.length → nodes1D grid i < nodes1D grid (i + 1)

/-- A usable regular 1-D grid of `n` nodes: finite start, positive normal step, the first and the last
node at most `κ` steps from 0, no overflow. -/
structure Regular1DOk (κ : ℚ) (start step : Ieee f) (n : Nat) : Prop where
  big : 2 ≤ n
  finite : Finite start ∧ Finite step
  pos : 0 < val step
  normal : f.underflow ≤ f.unitRoundoff * val step
  size : 0 ≤ κ ∧ 100 * (1 + κ) * f.unitRoundoff ≤ 1
  nodes : |val start| ≤ κ * val step ∧ |val start + val step * ((n - 1 : Nat) : ℚ)| ≤ κ * val step
  large : 4 * (κ * val step) + 1 ≤ f.omega

end Interpn
