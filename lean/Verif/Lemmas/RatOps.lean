import Verif.Model.Exact
import Mathlib.Data.Rat.Floor
import Mathlib.Data.Fin.VecNotation

/-! Exact rational arithmetic, used for the concrete cases (`example`s) beside the theorems. -/

set_option autoImplicit false

namespace Interpn

/-- Exact arithmetic on ℚ. Made an instance locally where examples need it. -/
@[reducible] def ratOps : FloatOps ℚ := exactOps ℚ

end Interpn
