import Verif.Model.Core

/-! Facts about Rust slices used as hypotheses. -/

set_option autoImplicit false

namespace Interpn

/-- Every Rust slice of a type that is not zero-sized has at most `isize::MAX` elements (64 bit). -/
def IsSlice {α : Type} (s : List α) : Prop := s.length < 2 ^ 63

theorem isSlice_iff {α : Type} (s : List α) : IsSlice s ↔ (s.length : Int) ≤ isizeMax := by
  unfold IsSlice isizeMax
  omega

/-- Every `usize` converts to the float type, as for `f32` and `f64`. -/
def TotalOfUsize (T : Type) [FloatOps T] : Prop :=
  ∀ n ≤ usizeMax, ∃ f, (FloatOps.ofUsize n : Option T) = some f

end Interpn
