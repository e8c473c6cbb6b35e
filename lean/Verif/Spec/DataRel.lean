import Verif.Spec.Ieee
import Verif.Spec.Api

/-! Comparison of two evaluations on related data. -/

set_option autoImplicit false

namespace Interpn

/-- Two calls end in the same way, with results related by `R`. -/
inductive SameOutcome {T T' : Type} (R : T → T' → Prop) : Res T → Res T' → Prop
  | ok {a : T} {b : T'} (h : R a b) : SameOutcome R (.ok a) (.ok b)
  | err (msg : String) : SameOutcome R (.err msg) (.err msg)
  | panic : SameOutcome R .panic .panic

namespace Ieee
variable {f : Format}

/-- `b` is `-a`, the sign of zero left open. -/
def Opposite : Ieee f → Ieee f → Prop
  | fin _ a _ _, fin _ b _ _ => b = -a
  | inf s, inf t => t = !s
  | nan, nan => True
  | _, _ => False

/-- `a` and `b` are the same, the sign of zero left open. -/
def SameValue : Ieee f → Ieee f → Prop
  | fin _ a _ _, fin _ b _ _ => b = a
  | inf s, inf t => t = s
  | nan, nan => True
  | _, _ => False

instance (a b : Ieee f) : Decidable (Opposite a b) := by
  cases a <;> cases b <;> unfold Opposite <;> infer_instance
instance (a b : Ieee f) : Decidable (SameValue a b) := by
  cases a <;> cases b <;> unfold SameValue <;> infer_instance

end Ieee
end Interpn
