import Verif.Spec.Dyadic
import Verif.Spec.PowerOfTwo

/-! Conditions under which no result underflows when stored values are scaled by a power of two
(C124). -/

set_option autoImplicit false

namespace Interpn
open FloatOps Ieee

variable {f : Format}

/-- The position of `x` relative to any two adjacent nodes, as a fraction of their distance counted
from the lower or from the upper one, in either direction, has no digits beyond the `s`-th binary
place. A float has none if it is 0 or at least `2^(p - 1 - s)` in size. -/
def PlacesAtMost (s : Nat) (grid : List (Ieee f)) (x : Ieee f) : Prop :=
  ∀ i a b, grid[i]? = some a → grid[i + 1]? = some b →
    Multiple (-s) (val ((x -. a) /. (b -. a))) ∧ Multiple (-s) (val ((-. (x -. b)) /. (b -. a)))

/-- The same for a regular axis with `dim` nodes, whose coordinates are computed with or without a
fused multiplication and addition. -/
def RegularPlacesAtMost (s dim : Nat) (start step x : Ieee f) : Prop :=
  ∀ i n p, i < dim → ofUsize i = some n → (p = start +. step *. n ∨ p = FloatOps.mulAdd step n start) →
    Multiple (-s) (val ((x -. p) /. step))

/-- The computed ratios of the widths of any two adjacent cells, both ways, are between `2^-r` and
`2^r`. -/
def RatiosWithin (r : Nat) (grid : List (Ieee f)) : Prop :=
  ∀ i a b c, grid[i]? = some a → grid[i + 1]? = some b → grid[i + 2]? = some c →
    ((b -. a) /. (c -. b)).Finite ∧ ((c -. b) /. (b -. a)).Finite ∧
    (1 / 2 ^ r ≤ val ((b -. a) /. (c -. b)) ∧ val ((b -. a) /. (c -. b)) ≤ 2 ^ r) ∧
    1 / 2 ^ r ≤ val ((c -. b) /. (b -. a)) ∧ val ((c -. b) /. (b -. a)) ≤ 2 ^ r

end Interpn
