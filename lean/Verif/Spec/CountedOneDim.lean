import Verif.Spec.Counted
import Verif.Model.Counted.OneDim
import Verif.Spec.Api

/-! How counts of operations of the one-dimensional interpolators are stated (C115). -/

set_option autoImplicit false

namespace Interpn.Counted
variable {T : Type} [FloatOps T]

/-- `eval_one` of an interpolator, counted. -/
def evalOne (fma : Bool) : Kind1D → (T → Counted (GridSample T)) → T → Counted T
  | .linear => Linear1D.evalOne fma
  | .linearHoldLast => LinearHoldLast1D.evalOne fma
  | .left => Left1D.evalOne
  | .right => Right1D.evalOne
  | .nearest => Nearest1D.evalOne

/-- The number of one-cell interpolations for one observation. -/
def kernels1D (kind : Kind1D) (inside : Bool) : Nat :=
  match kind with
  | .linear => 1
  | .linearHoldLast => if inside then 1 else 0
  | _ => 0

end Interpn.Counted
