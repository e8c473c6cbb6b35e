import Verif.Spec.Crop

/-! Vocabulary for axes on which a node is repeated, in any arithmetic (C125). -/

set_option autoImplicit false

namespace Interpn
open FloatOps

variable {T : Type} [FloatOps T]

/-- The last node is above the one before it. -/
def LastExceedsPrevious (grid : List T) : Prop :=
  ∃ n a b, grid.length = n + 2 ∧ grid[n]? = some a ∧ grid[n + 1]? = some b ∧ (a <. b) = true

/-- Nodes `o` and `o + 1` are different and `v` lies between them: above the lower one and not above
the upper one, with no limit at the ends of the axis. -/
def InProperCell (grid : List T) (o : Nat) (v : T) : Prop :=
  ∃ a b, grid[o]? = some a ∧ grid[o + 1]? = some b ∧ (a <. b) = true ∧
    (o = 0 ∨ (a <. v) = true) ∧ (o + 2 = grid.length ∨ (b <. v) = false)

/-- Nodes `i` and `i + 1` are the same number (the axis being sorted), and `v` is above it if and only
if `upper` is true. -/
def JumpAt (grid : List T) (i : Nat) (upper : Bool) (v : T) : Prop :=
  ∃ a b, grid[i]? = some a ∧ grid[i + 1]? = some b ∧ (b <=. a) = true ∧ (a <. v) = upper

/-- The number of nodes dropped at the beginning of the axis: for the part above the jump, the nodes
`0`, ..., `i`; for the part below it, none. -/
def jumpStart (i : Nat) (upper : Bool) : Nat := if upper then i + 1 else 0

/-- The number of nodes of the part above the jump, or below it. -/
def jumpCount (grid : List T) (i : Nat) (upper : Bool) : Nat :=
  if upper then grid.length - (i + 1) else i + 1

end Interpn
