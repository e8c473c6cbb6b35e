import Verif.Model.Utils
import Verif.Model.Unchecked.Core

/-! `/repo/src/utils.rs` built without overflow checks.
The same text as `Verif/Model/Utils.lean` with the wrapping integers of
`Verif/Model/Unchecked/Core.lean`. Structures, and definitions that do no integer arithmetic,
are shared with `Verif/Model/Utils.lean`. -/

set_option autoImplicit false

namespace Interpn.Unchecked
open FloatOps

/-- `linspace`, `/repo/src/utils.rs` 8-14: `n - 1` wraps for `n = 0`. -/
def linspace {T : Type} [FloatOps T] (start stop : T) (n : Nat) : Res (List T) := do
  let dx := (stop -. start) /. (← ofUsizeUnwrap (← usub n 1))
  mapRange (fun i => do return start +. (← ofUsizeUnwrap i) *. dx) n 0

end Interpn.Unchecked
