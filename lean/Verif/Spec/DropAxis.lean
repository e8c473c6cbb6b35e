import Verif.Spec.Rounding

/-! Conditions on one axis under which equal values are blended without rounding error (C67, C121). -/

set_option autoImplicit false

namespace Interpn
open FloatOps

variable {T K : Type} [FloatOps T] [Field K]

/-- `t` is finite, and subtracting 1 from it does not make it infinite. -/
def UsablePosition (fin : T → Prop) (t : T) : Prop := fin t ∧ fin (t -. one)

/-- Computing the position of `x` relative to any two adjacent nodes, as a fraction of their distance
counted from the lower or from the upper one, in either direction, does not overflow or divide
by 0. -/
def PositionsFinite (fin : T → Prop) (grid : List T) (x : T) : Prop :=
  ∀ i a b, grid[i]? = some a → grid[i + 1]? = some b →
    UsablePosition fin ((x -. a) /. (b -. a)) ∧ UsablePosition fin ((-. (x -. b)) /. (b -. a))

/-- The same for a regular axis with `dim` nodes, whose coordinates are computed with or without a
fused multiplication and addition. -/
def RegularPositionsFinite (fin : T → Prop) (dim : Nat) (start step x : T) : Prop :=
  ∀ i f p, i < dim → ofUsize i = some f → (p = start +. step *. f ∨ p = mulAdd step f start) →
    UsablePosition fin ((x -. p) /. step) ∧ UsablePosition fin ((x -. p) /. step -. one) ∧
      UsablePosition fin (-. ((x -. p) /. step))

/-- `r` is usable as the ratio of the widths of two adjacent cells: it has not become 0 or infinite,
and neither do the two weights of the difference quotients that are computed from it. -/
structure UsableRatio (val : T → K) (fin : T → Prop) (r : T) : Prop where
  finite : fin r
  ne : val r ≠ 0
  low : fin (r /. (r +. one))
  high : fin (one /. (one +. r))

/-- The computed ratios of the widths of any two adjacent cells, both ways, are usable. -/
def RatiosUsable (val : T → K) (fin : T → Prop) (grid : List T) : Prop :=
  ∀ i a b c, grid[i]? = some a → grid[i + 1]? = some b → grid[i + 2]? = some c →
    UsableRatio val fin ((b -. a) /. (c -. b)) ∧ UsableRatio val fin ((c -. b) /. (b -. a))

end Interpn
