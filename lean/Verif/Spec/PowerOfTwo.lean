import Verif.Spec.Ieee
import Verif.Spec.Python

/-! Floats that differ by a power of two: the same quantity in another unit. -/

set_option autoImplicit false

namespace Interpn

/-- The number of nodes a method needs along every axis. -/
def PyMethod.minNodes : PyMethod → Nat
  | .linear => 2
  | .nearest => 2
  | .cubic => 4

/-- The largest number of axes a method supports. -/
def PyMethod.maxAxes : PyMethod → Nat
  | .linear => 8
  | .nearest => 6
  | .cubic => 8

namespace Ieee
variable {f : Format}

/-- `b` is exactly `2^k` times `a`, with the sign of `a` (also of zero). Infinities and NaN are
kept. -/
def ScaledBy (k : Nat) : Ieee f → Ieee f → Prop
  | fin s a _ _, fin t b _ _ => t = s ∧ b = 2 ^ k * a
  | inf s, inf t => t = s
  | nan, nan => True
  | _, _ => False

instance (k : Nat) (a b : Ieee f) : Decidable (ScaledBy k a b) := by
  cases a <;> cases b <;> unfold ScaledBy <;> infer_instance

end Ieee
end Interpn
