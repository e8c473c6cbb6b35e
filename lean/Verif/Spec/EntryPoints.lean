import Verif.Spec.Api
import Verif.Spec.Special
import Verif.Spec.Batch

/-! Which implementation serves an entry point `interpn`. -/

set_option autoImplicit false

namespace Interpn

/-- Multilinear entry points: flattened up to 6 axes, recursive above. -/
def linearImpl (N : Nat) : Evaluator := if N ≤ 6 then .flat else .recursive N

/-- Multicubic entry points: flattened up to 4 axes, recursive above. -/
def cubicImpl (N : Nat) : Evaluator := if N ≤ 4 then .flat else .recursive N

end Interpn
