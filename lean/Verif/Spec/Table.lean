import Verif.Spec.Accuracy
import Verif.Spec.Ieee

/-! Vocabulary for the total error of tabulating and interpolating a function of real variables. -/

set_option autoImplicit false

namespace Interpn

variable {N : Nat}

/-- The table `vals`, of floating-point numbers in C order, holds the values of `F` at the nodes
`node k i` with errors of at most `ε`. -/
def TableOf {f : Format} (dims : Fin N → Nat) (node : Fin N → Nat → ℚ) (F : (Fin N → ℝ) → ℝ)
    (ε : ℝ) (vals : List (Ieee f)) : Prop :=
  ∀ loc : Fin N → Nat, (∀ k, loc k < dims k) →
    ∃ v, vals[cIndex dims loc]? = some v ∧
      |((Ieee.val v : ℚ) : ℝ) - F fun k => (node k (loc k) : ℝ)| ≤ ε

/-- In the box from the first to the last nodes, `F` is twice differentiable in each variable, and
the second derivative in variable `k` is at most `D k` in size. -/
def SecondDerivsOn (dims : Fin N → Nat) (node : Fin N → Nat → ℚ) (F : (Fin N → ℝ) → ℝ)
    (D : Fin N → ℝ) : Prop :=
  ∀ k y, (∀ j, (node j 0 : ℝ) ≤ y j ∧ y j ≤ (node j (dims j - 1) : ℝ)) →
    SecondDerivBounded (fun z => F (Function.update y k z)) (node k 0) (node k (dims k - 1)) (D k)

/-- In the box from the first to the last nodes, `F` is three times differentiable in each variable,
and the third derivative in variable `k` is at most `D k` in size. -/
def ThirdDerivsOn (dims : Fin N → Nat) (node : Fin N → Nat → ℚ) (F : (Fin N → ℝ) → ℝ)
    (D : Fin N → ℝ) : Prop :=
  ∀ k y, (∀ j, (node j 0 : ℝ) ≤ y j ∧ y j ≤ (node j (dims j - 1) : ℝ)) →
    ThirdDerivBounded (fun z => F (Function.update y k z)) (node k 0) (node k (dims k - 1)) (D k)

/-- The cells of axis `k` are at most `h k` wide. -/
def CellsAtMost (dims : Fin N → Nat) (node : Fin N → Nat → ℚ) (h : Fin N → ℝ) : Prop :=
  ∀ k i, i + 1 < dims k → (node k (i + 1) : ℝ) - node k i ≤ h k

end Interpn
