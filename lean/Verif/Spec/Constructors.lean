import Verif.Model.Core

/-! Vocabulary for the constructor properties. -/

set_option autoImplicit false

namespace Interpn

/-- Every partial product `d_0 * .. * d_{k-1}` fits in `usize` (64 bit), so that computing the product
from left to right does not overflow. -/
def ProductFits (dims : List Nat) : Prop :=
  ∀ k, k ≤ dims.length → (dims.take k).prod ≤ 2 ^ 64 - 1

/-- Documented behaviour of a regular-grid constructor with outcome `r`: the product of the
dimensions must be the number of values, every dimension at least `m`, every step positive;
the first violated condition is reported. `good` is the outcome when nothing is violated. An
overflowing product panics. -/
structure RegularNewSpec {T α : Type} [FloatOps T] (m : Nat) (msg : String) (dims : List Nat)
    (steps vals : List T) (r good : Res α) : Prop where
  overflow : ¬ ProductFits dims → r = .panic
  mismatch : ProductFits dims → vals.length ≠ dims.prod → r = .err "Dimension mismatch"
  small : ProductFits dims → vals.length = dims.prod → (∃ d ∈ dims, d < m) → r = .err msg
  step : ProductFits dims → vals.length = dims.prod → (∀ d ∈ dims, m ≤ d) →
    (∃ h ∈ steps, (FloatOps.lt FloatOps.zero h) = false) →
    r = .err "All grids must be monotonically increasing"
  ok : ProductFits dims → vals.length = dims.prod → (∀ d ∈ dims, m ≤ d) →
    (∀ h ∈ steps, (FloatOps.lt FloatOps.zero h) = true) → r = good

/-- The second entry of a grid exceeds the first. -/
def SecondExceedsFirst {T : Type} [FloatOps T] (g : List T) : Prop :=
  ∃ a b rest, g = a :: b :: rest ∧ FloatOps.lt a b = true

/-- Documented behaviour of a rectilinear-grid constructor, similarly. Only the first two
entries of a grid are compared. -/
structure RectilinearNewSpec {T α : Type} [FloatOps T] (m : Nat) (msg : String)
    (grids : List (List T)) (vals : List T) (r good : Res α) : Prop where
  overflow : ¬ ProductFits (grids.map List.length) → r = .panic
  mismatch : ProductFits (grids.map List.length) → vals.length ≠ (grids.map List.length).prod →
    r = .err "Dimension mismatch"
  small : ProductFits (grids.map List.length) → vals.length = (grids.map List.length).prod →
    (∃ g ∈ grids, g.length < m) → r = .err msg
  order : ProductFits (grids.map List.length) → vals.length = (grids.map List.length).prod →
    (∀ g ∈ grids, m ≤ g.length) → (∃ g ∈ grids, ¬ SecondExceedsFirst g) →
    r = .err "All grids must be monotonically increasing"
  ok : ProductFits (grids.map List.length) → vals.length = (grids.map List.length).prod →
    (∀ g ∈ grids, m ≤ g.length) → (∀ g ∈ grids, SecondExceedsFirst g) → r = good

end Interpn
