import Verif.Spec.Grid
import Mathlib.Analysis.Calculus.Deriv.Basic

/-! Vocabulary for the accuracy properties. -/

set_option autoImplicit false

namespace Interpn

/-- Adjacent cells of an axis with `n` nodes `p` differ in width by a factor of at most `ρ`. -/
def MeshRatio {K : Type} [Field K] [LinearOrder K] (n : Nat) (p : Nat → K) (ρ : K) : Prop :=
  ∀ i, i + 2 < n → p (i + 1) - p i ≤ ρ * (p (i + 2) - p (i + 1)) ∧
    p (i + 2) - p (i + 1) ≤ ρ * (p (i + 1) - p i)

/-- `φ` is twice differentiable on `[a, b]` and its second derivative is at most `M` in size. -/
def SecondDerivBounded (φ : ℝ → ℝ) (a b M : ℝ) : Prop :=
  ∃ d1 d2 : ℝ → ℝ, ∀ z ∈ Set.Icc a b, HasDerivWithinAt φ (d1 z) (Set.Icc a b) z ∧
    HasDerivWithinAt d1 (d2 z) (Set.Icc a b) z ∧ |d2 z| ≤ M

/-- `φ` is three times differentiable on `[a, b]` and its third derivative is at most `M` in
size. -/
def ThirdDerivBounded (φ : ℝ → ℝ) (a b M : ℝ) : Prop :=
  ∃ d1 d2 d3 : ℝ → ℝ, ∀ z ∈ Set.Icc a b, HasDerivWithinAt φ (d1 z) (Set.Icc a b) z ∧
    HasDerivWithinAt d1 (d2 z) (Set.Icc a b) z ∧ HasDerivWithinAt d2 (d3 z) (Set.Icc a b) z ∧
    |d3 z| ≤ M

/-- On the box with sides `[lo i, hi i]` the function `F` has a second derivative in coordinate `k`,
and moving coordinate `j` by `δ` changes this derivative by at most `L δ`. -/
def SecondDerivLipschitz {N : Nat} (F : (Fin N → ℝ) → ℝ) (lo hi : Fin N → ℝ) (k j : Fin N) (L : ℝ) :
    Prop :=
  ∃ d1 d2 : (Fin N → ℝ) → ℝ, ∀ y, (∀ i, y i ∈ Set.Icc (lo i) (hi i)) →
    HasDerivWithinAt (fun z => F (Function.update y k z)) (d1 y) (Set.Icc (lo k) (hi k)) (y k) ∧
    HasDerivWithinAt (fun z => d1 (Function.update y k z)) (d2 y) (Set.Icc (lo k) (hi k)) (y k) ∧
    ∀ b ∈ Set.Icc (lo j) (hi j), |d2 (Function.update y j b) - d2 y| ≤ L * |b - y j|

/-- The same for the third derivative in coordinate `k`. -/
def ThirdDerivLipschitz {N : Nat} (F : (Fin N → ℝ) → ℝ) (lo hi : Fin N → ℝ) (k j : Fin N) (L : ℝ) :
    Prop :=
  ∃ d1 d2 d3 : (Fin N → ℝ) → ℝ, ∀ y, (∀ i, y i ∈ Set.Icc (lo i) (hi i)) →
    HasDerivWithinAt (fun z => F (Function.update y k z)) (d1 y) (Set.Icc (lo k) (hi k)) (y k) ∧
    HasDerivWithinAt (fun z => d1 (Function.update y k z)) (d2 y) (Set.Icc (lo k) (hi k)) (y k) ∧
    HasDerivWithinAt (fun z => d2 (Function.update y k z)) (d3 y) (Set.Icc (lo k) (hi k)) (y k) ∧
    ∀ b ∈ Set.Icc (lo j) (hi j), |d3 (Function.update y j b) - d3 y| ≤ L * |b - y j|

end Interpn
