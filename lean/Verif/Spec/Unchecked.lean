import Verif.Spec.Constructors

/-! Vocabulary for constructors in builds without overflow checks. -/

set_option autoImplicit false

namespace Interpn

/-- A regular-grid constructor with outcome `r` in a build without overflow checks: the number
of values is compared with the product of the dimensions modulo `2^64`; everything else is as in
the checked build (`RegularNewSpec`). -/
structure WrappedRegularNewSpec {T α : Type} [FloatOps T] (m : Nat) (msg : String)
    (dims : List Nat) (steps vals : List T) (r good : Res α) : Prop where
  mismatch : vals.length ≠ dims.prod % 2 ^ 64 → r = .err "Dimension mismatch"
  small : vals.length = dims.prod % 2 ^ 64 → (∃ d ∈ dims, d < m) → r = .err msg
  step : vals.length = dims.prod % 2 ^ 64 → (∀ d ∈ dims, m ≤ d) →
    (∃ h ∈ steps, (FloatOps.lt FloatOps.zero h) = false) →
    r = .err "All grids must be monotonically increasing"
  ok : vals.length = dims.prod % 2 ^ 64 → (∀ d ∈ dims, m ≤ d) →
    (∀ h ∈ steps, (FloatOps.lt FloatOps.zero h) = true) → r = good

/-- Rectilinear-grid constructors, similarly. -/
structure WrappedRectilinearNewSpec {T α : Type} [FloatOps T] (m : Nat) (msg : String)
    (grids : List (List T)) (vals : List T) (r good : Res α) : Prop where
  mismatch : vals.length ≠ (grids.map List.length).prod % 2 ^ 64 → r = .err "Dimension mismatch"
  small : vals.length = (grids.map List.length).prod % 2 ^ 64 → (∃ g ∈ grids, g.length < m) →
    r = .err msg
  order : vals.length = (grids.map List.length).prod % 2 ^ 64 → (∀ g ∈ grids, m ≤ g.length) →
    (∃ g ∈ grids, ¬ SecondExceedsFirst g) → r = .err "All grids must be monotonically increasing"
  ok : vals.length = (grids.map List.length).prod % 2 ^ 64 → (∀ g ∈ grids, m ≤ g.length) →
    (∀ g ∈ grids, SecondExceedsFirst g) → r = good

end Interpn
