import Verif.Model.Core

/-! Vocabulary for keeping only a part of a table, in any arithmetic (C120). -/

set_option autoImplicit false

namespace Interpn
open FloatOps

variable {T : Type} [FloatOps T]

/-- The nodes `a`, ..., `a + m - 1` of an axis. -/
def cropAxis (a m : Nat) (grid : List T) : List T := (grid.drop a).take m

/-- The nodes are in increasing order, each compared with all the later ones. Nodes may be repeated. -/
def SortedAxis (grid : List T) : Prop := grid.Pairwise fun a b => (a <=. b) = true

/-- The observation `v` lies in the range of the nodes `a + r`, ..., `a + m - 1 - r` of the axis:
above the first of them and not above the last one, as decided by the comparison `<`. There is no
limit on a side where the part reaches the end of the axis. -/
def KeptBy (r : Nat) (grid : List T) (a m : Nat) (v : T) : Prop :=
  a + m ≤ grid.length ∧
  (a = 0 ∨ ∃ y, grid[a + r]? = some y ∧ (y <. v) = true) ∧
  (a + m = grid.length ∨ ∃ y, grid[a + m - 1 - r]? = some y ∧ (y <. v) = false)

/-- The first `m` of the `dim` nodes of a regular axis decide the result at `v`: the number of the cell
that the code computes for `v` is below `m - 1 - r`. No limit if all nodes are kept. -/
def KeptByFirst (r : Nat) (dim m : Nat) (start step v : T) : Prop :=
  m ≤ dim ∧ (m = dim ∨ ∀ z : Int, toIsize (floor ((v -. start) /. step)) = some z → z + 2 + r ≤ m)

end Interpn
