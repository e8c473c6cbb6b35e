import Verif.Spec.Grid
import Verif.Spec.Tensor
import Mathlib.Algebra.BigOperators.Group.Finset.Basic
import Mathlib.Data.Real.Basic

/-! Integration rules on one axis with `n` nodes `p` and values `f`. Used to state C132. -/

set_option autoImplicit false

namespace Interpn

open Finset

/-- The first node of every axis. -/
noncomputable def Axes.lower {N : Nat} (G : Axes ℝ N) (k : Fin N) : ℝ := G.node k 0

/-- The last node of every axis. -/
noncomputable def Axes.upper {N : Nat} (G : Axes ℝ N) (k : Fin N) : ℝ := G.node k (G.size k - 1)

/-- The trapezoid rule: every cell contributes its width times the mean of its two values. -/
noncomputable def trapezoid (n : Nat) (p f : Nat → ℝ) : ℝ :=
  ∑ i ∈ range (n - 1), (p (i + 1) - p i) * ((f i + f (i + 1)) / 2)

/-- The trapezoid rule corrected, on every cell, with one twelfth of the squared width times the
drop of the node slope over the cell. -/
noncomputable def correctedTrapezoid (n : Nat) (p f : Nat → ℝ) : ℝ :=
  ∑ i ∈ range (n - 1), ((p (i + 1) - p i) * ((f i + f (i + 1)) / 2) +
    (p (i + 1) - p i) ^ 2 / 12 * (nodeSlope n p f i - nodeSlope n p f (i + 1)))

/-- The sum of the values with the weights of the three nodes at each end changed from one to
`3/8, 7/6, 23/24`, times the step (Gregory's rule of third order; with four nodes the changes
overlap and it is Simpson's `3/8` rule). -/
noncomputable def gregory (n : Nat) (step : ℝ) (f : Nat → ℝ) : ℝ :=
  step * (∑ i ∈ range n, f i - (5 / 8 * f 0 - 1 / 6 * f 1 + 1 / 24 * f 2) -
    (5 / 8 * f (n - 1) - 1 / 6 * f (n - 2) + 1 / 24 * f (n - 3)))

end Interpn
